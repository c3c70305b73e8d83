import Verif.Py.Bytes
import Verif.Model.Detect
import Mathlib.Data.Rat.Floor
/-!
# Mann turbulence boxes — `/repo/weio/mannbox_file.py`

`read` (89-146), `write` (152-163), coordinates (181-205), `closestPoint`
(221-224).  Numbers are stored as 4-byte floats; the storage is a parameter.
A field is a list of x-planes, each a list of y-rows of z-values.
Simplification: `\d` of regular expressions matches ASCII digits only.
-/
namespace Verif.Mann
open Verif.Py Verif.Detect

inductive Err where
  | noFilename     -- mannbox_file.py:107
  | notFound       -- :109
  | emptyFile      -- :111
  | brokenFormat   -- BrokenFormatError :122
  | valueError     -- reshape / frombuffer of a wrong size :129-130
deriving Repr, DecidableEq

/-! ## Dimensions from the file name (mannbox_file.py:113-122) -/

/-- `re.findall(r'\d+', s)`: the maximal runs of digits, left to right.  `acc` is
the run being read. -/
def digitRunsAux (acc : Str) : Str → List Str
  | [] => if acc = [] then [] else [acc]
  | c :: s =>
    if c.isDigit then digitRunsAux (acc ++ [c]) s
    else if acc = [] then digitRunsAux [] s else acc :: digitRunsAux [] s

def digitRuns (s : Str) : List Str := digitRunsAux [] s

/-- `os.path.splitext(os.path.basename(filename))[0]` (mannbox_file.py:115) -/
def baseStem (filename : Str) : Str :=
  let base := afterSlash filename
  base.take (base.length - (splitextExt base).length)

/-- `res[-3:]` of the integers in the base name, error with fewer than three
(mannbox_file.py:116-122) -/
def inferDims (filename : Str) : Except Err (Nat × Nat × Nat) :=
  let res := (digitRuns (baseStem filename)).map (fun d => Nat.ofDigitChars 10 d 0)
  match res.reverse with
  | nz :: ny :: nx :: _ => .ok (nx, ny, nz)
  | _ => .error .brokenFormat

/-! ## Reading and writing -/

/-- storage of a `float32` in 4 bytes -/
structure Store (F : Type) where
  enc : F → Bytes
  dec : Bytes → F

/-- `np.frombuffer(f.read(4*ny*nz), np.float32).reshape((ny,nz))`
(mannbox_file.py:129-130): error unless exactly `4*ny*nz` bytes were read. -/
def readPlane (st : Store F) (ny nz : Nat) (bs : Bytes) : Except Err (List (List F)) :=
  let b := bs.take (4 * ny * nz)
  if b.length = 4 * ny * nz then
    .ok (rowsOf nz ny ((rowsOf 4 (ny * nz) b).map st.dec))
  else .error .valueError

/-- the `for ix in range(nx)` loop (mannbox_file.py:128-130), with the flip of
the y axis -/
def readPlanes (st : Store F) (ny nz : Nat) : Nat → Bytes → Except Err (List (List (List F)))
  | 0, _ => .ok []
  | nx + 1, bs =>
    match readPlane st ny nz bs with
    | .error e => .error e
    | .ok plane =>
      match readPlanes st ny nz nx (bs.drop (4 * ny * nz)) with
      | .error e => .error e
      | .ok rest => .ok (plane.reverse :: rest)

/-- `MannBoxFile.read(filename, N)` on a file system (mannbox_file.py:89-131). -/
def read (st : Store F) (fs : Str → Option Bytes) (filename : Str)
    (N : Option (Nat × Nat × Nat)) : Except Err (List (List (List F))) :=
  if filename = [] then .error .noFilename
  else match fs filename with
    | none => .error .notFound
    | some bs =>
      if bs = [] then .error .emptyFile
      else
        match (match N with | some n => Except.ok n | none => inferDims filename) with
        | .error e => .error e
        | .ok (nx, ny, nz) => readPlanes st ny nz nx bs

/-- `MannBoxFile.write` (mannbox_file.py:152-163): per x-plane, the flipped rows
one after the other. -/
def write (st : Store F) (field : List (List (List F))) : Bytes :=
  (field.map (fun plane => (plane.reverse.flatten).flatMap st.enc)).flatten

/-! ## Coordinates -/

/-- `np.arange(start, stop, step)` over the rationals (`step ≠ 0`):
`ceil((stop-start)/step)` values -/
def arange (start stop step : ℚ) : List ℚ :=
  (List.range (⌈(stop - start) / step⌉).toNat).map (fun (i : Nat) => start + i * step)

/-- `np.mean` -/
def mean (l : List ℚ) : ℚ := l.sum / l.length

/-- `MannBoxFile.z` (mannbox_file.py:181-186) -/
def zCoord (nz : Nat) (z0 dz : ℚ) (zMid : Option ℚ) : List ℚ :=
  let zmax := z0 + ((nz : ℚ) - 1 + 1 / 10) * dz
  let z := arange z0 zmax dz
  match zMid with
  | none => z
  | some m => z.map (fun x => x + (m - mean z))

/-- `MannBoxFile.y` (mannbox_file.py:188-197) -/
def yCoord (ny : Nat) (y0 : Option ℚ) (dy : ℚ) : List ℚ :=
  match y0 with
  | some y0 => arange y0 (y0 + ((ny : ℚ) - 1 + 1 / 10) * dy) dy
  | none =>
    let y := arange 0 (((ny : ℚ) - 1 + 1 / 10) * dy) dy
    y.map (fun x => x - mean y)

/-- `MannBoxFile.t(dx, U)` (mannbox_file.py:199-205) -/
def tCoord (nt : Nat) (dx U : ℚ) : List ℚ :=
  let dt := dx / U
  arange 0 (dt * ((nt : ℚ) - 1 / 2)) dt

/-- `np.argmin`: index of the first minimum, `none` (ValueError) on an empty
array.  `i` is the index of the head, `best` the best so far. -/
def argminAux (best : ℚ) (bi : Nat) (i : Nat) : List ℚ → Nat
  | [] => bi
  | x :: xs => if x < best then argminAux x i (i + 1) xs else argminAux best bi (i + 1) xs

def argmin : List ℚ → Option Nat
  | [] => none
  | x :: xs => some (argminAux x 0 1 xs)

/-- `closestPoint(y, z)` (mannbox_file.py:221-224, turbsim_file.py:199-202) on
the coordinate vectors `ys`, `zs` -/
def closestPoint (ys zs : List ℚ) (y z : ℚ) : Option (Nat × Nat) :=
  match argmin (ys.map (fun a => |a - y|)), argmin (zs.map (fun a => |a - z|)) with
  | some iy, some iz => some (iy, iz)
  | _, _ => none

end Verif.Mann
