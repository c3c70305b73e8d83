import Verif.Model.FastLine
import Verif.Model.Mann
import Verif.Py.Interp
/-!
# HAWC2 aerodynamic layout and profile coefficient files

`/repo/weio/wetb/hawc2/ae_file.py` (41-121) and `/repo/weio/wetb/hawc2/pc_file.py`
(23-152).

A text file is the text itself; `readlines` gives its lines without the end of
line.  Floats are parameters in the text part (`Num`: parsing and the formats
used), rationals in the queries.  Simplifications: row counts and set counts
written with a sign `-` are rejected (`unmodelled`); dictionaries are lists of
pairs in insertion order.
-/
namespace Verif.HawcAe
open Verif.Py Verif.FastLine

/-- numbers in text: `float(s)`, and the formats `%.17e` (ae), `%d` (ae), `.15e`
(pc) and `%.8f` (pc), without padding -/
structure Num (F : Type) where
  parse : Str → Option F
  e17 : F → Str
  d : F → Str
  e15 : F → Str
  f8 : F → Str

/-- exceptions: IndexError and ValueError of the readers -/
inductive Err where
  | index
  | value
  | unmodelled
deriving DecidableEq, Repr

/-- `fid.readlines()`, ends of line removed -/
def readlines (s : Str) : List Str :=
  let l := splitOn '\n' s
  if l.getLast? = some [] then l.dropLast else l

/-- `int(s)` of a word that should be a count -/
def intCount (s : Str) : Except Err Nat :=
  if strIsInt s then (if 0 ≤ pyInt s then .ok (pyInt s).toNat else .error .unmodelled)
  else .error .value

/-- `int(s)` of a word -/
def intOf (s : Str) : Except Err Int := if strIsInt s then .ok (pyInt s) else .error .value

/-- `[float(v) for v in l.split()[:4]]` (ae_file.py:119, pc_file.py:47) -/
def floatsOf (N : Num F) (ws : List Str) : Except Err (List F) :=
  match ws.mapM N.parse with
  | some r => .ok r
  | none => .error .value

/-- `np.array([[float(v) for v in l.split()[:4]] for l in lines[lptr:lptr+n_rows]])`
(ae_file.py:119, pc_file.py:47).  The slice may be shorter than `n_rows`.  Rows of
different lengths are rejected by numpy (ValueError). -/
def rowsOfLines (N : Num F) (lines : List Str) : Except Err (List (List F)) :=
  match lines.mapM (fun l => floatsOf N ((words l).take 4)) with
  | .error e => .error e
  | .ok rows => if rows.all (fun r => r.length = (rows.headD []).length) then .ok rows else .error .value

/-! ## The AE file -/

/-- assignment `d[k] = v` to a dictionary -/
def dset (d : List (Int × V)) (k : Int) (v : V) : List (Int × V) :=
  if k ∈ d.map Prod.fst then d.map (fun p => if p.1 = k then (k, v) else p) else d ++ [(k, v)]

/-- `d[k]` -/
def dget (d : List (Int × V)) (k : Int) : Option V := (d.find? (fun p => p.1 = k)).map Prod.snd

/-- `ae_sets` (ae_file.py:42): set number ↦ rows -/
abbrev AeSets (F : Type) := List (Int × List (List F))

/-- the first two words of a line, as integers (ae_file.py:117) -/
def setHeader (line : Str) : Except Err (Int × Nat) :=
  match (words line).take 2 with
  | [a, b] =>
    match intOf a, intCount b with
    | .ok n, .ok k => .ok (n, k)
    | .error e, _ => .error e
    | _, .error e => .error e
  | _ => .error .value

/-- the loop `for _ in range(1, nsets+1)` (ae_file.py:116-121) -/
def aeLoop (N : Num F) : Nat → List Str → AeSets F → Except Err (AeSets F)
  | 0, _, d => .ok d
  | n + 1, lines, d =>
    match lines with
    | [] => .error .index
    | l :: rest =>
      match setHeader l with
      | .error e => .error e
      | .ok (nr, k) =>
        match rowsOfLines N (rest.take k) with
        | .error e => .error e
        | .ok rows => aeLoop N n (rest.drop k) (dset d nr rows)

/-- number of sets: `int(lines[0].split()[0])` (ae_file.py:113, pc_file.py:35) -/
def firstCount (lines : List Str) : Except Err Nat :=
  match lines with
  | [] => .error .index
  | l :: _ => match words l with
    | [] => .error .index
    | w :: _ => intCount w

/-- `AEFile._read_file` (ae_file.py:109-121) -/
def aeRead (N : Num F) (text : Str) : Except Err (AeSets F) :=
  match firstCount (readlines text) with
  | .error e => .error e
  | .ok n => aeLoop N n (readlines text).tail []

/-- right alignment in a field of `w` characters -/
def padLeft (w : Nat) (s : Str) : Str := List.replicate (w - s.length) ' ' ++ s

/-- `'%25.17e %25.17e %25.17e %5d\n' % (...)` (ae_file.py:98); `line[3]` of a row of
another length raises IndexError, not modelled: `[]` -/
def aeRow (N : Num F) : List F → Str
  | r :: c :: t :: s :: _ =>
    padLeft 25 (N.e17 r) ++ ' ' :: (padLeft 25 (N.e17 c) ++ ' ' :: (padLeft 25 (N.e17 t) ++ ' ' ::
      (padLeft 5 (N.d s))))
  | _ => []

/-- lines of one set (ae_file.py:95-98) -/
def aeSetLines (N : Num F) (p : Int × List (List F)) : List Str :=
  (showInt p.1 ++ ' ' :: showInt p.2.length) :: p.2.map (aeRow N)

/-- every line followed by an end of line -/
def unlines (ls : List Str) : Str := ls.flatMap (fun l => l ++ ['\n'])

/-- first line (ae_file.py:94) -/
def aeTitle (n : Nat) : Str := showInt n ++ " r[m]           Chord[m]    T/C[%]  Set no.".toList

/-- `AEFile.__str__` (ae_file.py:91-99) -/
def aeWrite (N : Num F) (d : AeSets F) : Str :=
  unlines (aeTitle d.length :: d.flatMap (aeSetLines N))

/-- the loop `while set_id in self.ae_sets.keys()` (ae_file.py:86-87); at most as
many steps as there are sets -/
def nextId (keys : List Int) : Nat → Int → Int
  | 0, i => i
  | n + 1, i => if i ∈ keys then nextId keys n (i + 1) else i

/-- `np.array([radius, chord, thickness, pc_set_id]).T` (ae_file.py:88), columns of
equal lengths -/
def aeColumns : List F → List F → List F → List F → List (List F)
  | r :: rs, c :: cs, t :: ts, s :: ss => [r, c, t, s] :: aeColumns rs cs ts ss
  | _, _, _, _ => []

/-- `AEFile.add_set` (ae_file.py:82-89) -/
def addSet (d : AeSets F) (radius chord thickness pcSet : List F) (setId : Option Int) : AeSets F × Int :=
  let i := match setId with
    | some i => i
    | none => nextId (d.map Prod.fst) d.length 1
  (dset d i (aeColumns radius chord thickness pcSet), i)

/-! ### Queries over rational tables (rows radius, chord, thickness, set) -/

/-- a row of an AE table -/
structure AeRow where
  r : ℚ
  chord : ℚ
  thick : ℚ
  set : ℚ
deriving DecidableEq

/-- `_value(radius, 1)` / `_value(radius, 2)` with a radius (ae_file.py:46-57) -/
def chordAt (t : List AeRow) (radius : ℚ) : Option ℚ := interp radius (t.map (fun p => (p.r, p.chord)))
def thicknessAt (t : List AeRow) (radius : ℚ) : Option ℚ := interp radius (t.map (fun p => (p.r, p.thick)))

/-- `radius_ae(radius)` (ae_file.py:59-64): a number, or the whole column.  `none`:
ValueError of `argmin` of an empty column. -/
def radiusAe (t : List AeRow) (radius : Option ℚ) : Option (ℚ ⊕ List ℚ) :=
  let radii := t.map AeRow.r
  match radius with
  | none => some (.inr radii)
  | some x =>
    if x = 0 then some (.inr radii)
    else match Mann.argmin (radii.map (fun a => |a - x|)) with
      | none => none
      | some i => (radii[i]?).map Sum.inl

/-- `np.max` -/
def maxOf : List ℚ → Option ℚ
  | [] => none
  | a :: t => some (t.foldl max a)

/-- `pc_set_nr(radius)` (ae_file.py:66-80), first entry of the slice when no row is
close -/
def pcSetNr (t : List AeRow) (radius : ℚ) : Option ℚ :=
  let radii := t.map AeRow.r
  let index := max 1 (searchsorted radii radius)
  match maxOf radii, Mann.argmin (radii.map (fun a => |a - radius|)) with
  | some m, some i =>
    match t[i]? with
    | some p =>
      if |p.r - radius| < 1 / 10000 * m then some p.set
      else (t[index - 1]?).map AeRow.set
    | none => none
  | _, _ => none

/-! ## The PC file -/

/-- one profile: thickness and coefficient rows -/
abbrev Profile (F : Type) := F × List (List F)

/-- `pc_sets` (pc_file.py:24, 51): set number ↦ profiles -/
abbrev PcSets (F : Type) := List (Int × List (Profile F))

/-- `profile_nr, n_rows, thickness = lines[lptr].split()[:3]` (pc_file.py:44-45) -/
def profHeader (N : Num F) (line : Str) : Except Err (Nat × F) :=
  match (words line).take 3 with
  | [a, b, c] =>
    match intOf a, intCount b, N.parse c with
    | .error e, _, _ => .error e
    | _, .error e, _ => .error e
    | _, _, none => .error .value
    | .ok _, .ok k, some th => .ok (k, th)
  | _ => .error .value

/-- the loop over profiles (pc_file.py:43-50); returns the lines left -/
def profLoop (N : Num F) : Nat → List Str → List (Profile F) → Except Err (List (Profile F) × List Str)
  | 0, lines, acc => .ok (acc, lines)
  | n + 1, lines, acc =>
    match lines with
    | [] => .error .index
    | l :: rest =>
      match profHeader N l with
      | .error e => .error e
      | .ok (k, th) =>
        match rowsOfLines N (rest.take k) with
        | .error e => .error e
        | .ok rows => profLoop N n (rest.drop k) (acc ++ [(th, rows)])

/-- the loop over sets (pc_file.py:37-51), sets numbered from `i` -/
def pcLoop (N : Num F) : Nat → Int → List Str → PcSets F → Except Err (PcSets F)
  | 0, _, _, d => .ok d
  | n + 1, i, lines, d =>
    match firstCount lines with
    | .error e => .error e
    | .ok k =>
      match profLoop N k lines.tail [] with
      | .error e => .error e
      | .ok (ps, rest) => pcLoop N n (i + 1) rest (dset d i ps)

/-- `PCFile(filename)` (pc_file.py:23-51) -/
def pcRead (N : Num F) (text : Str) : Except Err (PcSets F) :=
  match firstCount (readlines text) with
  | .error e => .error e
  | .ok n => pcLoop N n 1 (readlines text).tail []

/-- `'{0: 19.015e}'`: a space in front of a number without sign, 19 characters -/
def signed (s : Str) : Str := if s.head? = some '-' then s else ' ' :: s

/-- `linefmt.format(*line)` (pc_file.py:131-132, 142), rows of four numbers -/
def pcRow (N : Num F) (r : List F) : Str :=
  joinWith [' '] (r.map (fun x => padLeft 19 (signed (N.e15 x))))

/-- lines of profile number `i` (pc_file.py:138-142) -/
def profLines (N : Num F) (i : Nat) (p : Profile F) : List Str :=
  (showInt i ++ ' ' :: (showInt p.2.length ++ ' ' :: N.f8 p.1)) :: p.2.map (pcRow N)

/-- lines of the profiles of a set, numbered from `i` -/
def profsLines (N : Num F) : Nat → List (Profile F) → List Str
  | _, [] => []
  | i, p :: ps => profLines N i p ++ profsLines N (i + 1) ps

/-- lines of a set (pc_file.py:136-142): the set number is not written -/
def pcSetLines (N : Num F) (p : Int × List (Profile F)) : List Str :=
  showInt p.2.length :: profsLines N 1 p.2

/-- `PCFile.__str__` (pc_file.py:123-143) -/
def pcWrite (N : Num F) (d : PcSets F) : Str :=
  unlines (showInt d.length :: d.flatMap (pcSetLines N))

/-! ### Lookups -/

/-- a rational coefficient table: rows of angle of attack and the coefficient of
the column asked for -/
abbrev Table := List (ℚ × ℚ)

/-- `_Cxxx(thickness, alpha, column)` (pc_file.py:53-63): `none` when unpacking the
slices (or `np.interp`) raises ValueError.  A division by zero gives NaN in the
code (`some` of 0 division here): see the theorems' hypotheses. -/
def cxxx (ths : List ℚ) (profiles : List Table) (thickness alpha : ℚ) : Option ℚ :=
  let k := searchsorted ths thickness
  let index := if k = 0 then 1 else k
  match (profiles.drop (index - 1)).take 2, (ths.drop (index - 1)).take 2 with
  | [p0, p1], [th0, th1] =>
    match interp alpha p0, interp alpha p1 with
    | some c0, some c1 => some (c0 + (c1 - c0) * (thickness - th0) / (th1 - th0))
    | _, _ => none
  | _, _ => none

end Verif.HawcAe
