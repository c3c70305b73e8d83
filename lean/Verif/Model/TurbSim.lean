import Verif.Model.Mann
import Verif.Model.FastBin
import Verif.Py.Num
/-!
# TurbSim full-field boxes — `/repo/weio/turbsim_file.py`

`read` (61-108), `write` (110-171), `hubValues` (204-222), `iMid` (231-235), the
line and plane views (241-325), correlations and spectra (351-438), `scale`
(473-506), `makePeriodic` (508-529), `toDataFrame` (579-659).

Numbers are rationals ("real arithmetic"); only the storage of the header
numbers, scales and offsets as 4-byte floats is kept, as a parameter `Store`
(`single` rounds, `enc`/`dec` are the bytes; overflow to infinity is not
modelled).  A velocity field is a function of component, time, y and z index;
its sizes are kept beside it (`nDim` is 3, the tower has as many time steps as
the grid).  The text stored in `info` is ASCII.
-/
namespace Verif.TurbSim
open Verif.Py Verif.Mann Verif.FastBin

inductive Err where
  | valueError     -- min of an empty array :133, reshape of a short buffer :93
  | indexError     -- self['z'][1] :147
  | structError    -- struct.pack / unpack :155, :82
  | unicodeError   -- bytes.decode() :86
  | emptyFile      -- :77
deriving Repr, DecidableEq

/-- 4-byte float storage -/
structure Store4 where
  single : ℚ → ℚ
  enc : ℚ → Bytes
  dec : Bytes → ℚ

/-- component, time, y, z -/
abbrev Field := Nat → Nat → Nat → Nat → ℚ
/-- component, time, tower point -/
abbrev Tower := Nat → Nat → Nat → ℚ

/-- The dictionary entries used by `write` -/
structure Box where
  nt : Nat
  ny : Nat
  nz : Nat
  u : Field
  tower : Option (Nat × Tower)
  y : List ℚ
  z : List ℚ
  t : List ℚ
  ID : Option Int
  zRef : Option ℚ
  uRef : Option ℚ

/-! ## Middle of the box, hub values -/

/-- index of the point closest to the middle of the first and last coordinate:
`np.argmin(np.abs(c-(c[0]+c[-1])/2))` (turbsim_file.py:233-234) -/
def midIndex (c : List ℚ) : Option Nat :=
  match c.head?, c.getLast? with
  | some a, some b => argmin (c.map (fun x => |x - (a + b) / 2|))
  | _, _ => none

/-- `iMid` (turbsim_file.py:231-235) -/
def iMid (ys zs : List ℚ) : Except Err (Nat × Nat) :=
  match midIndex ys, midIndex zs with
  | some iy, some iz => .ok (iy, iz)
  | _, _ => .error .indexError

/-- time series at a point, `self['u'][k,:,iy,iz]` -/
def series (u : Field) (nt k iy iz : Nat) : List ℚ := (List.range nt).map (fun it => u k it iy iz)

/-- `hubValues()` without argument (turbsim_file.py:204-222) -/
def hubValues (b : Box) : Except Err (ℚ × ℚ) :=
  let zHub : Except Err ℚ :=
    match b.zRef with
    | some z => .ok z
    | none =>
      match midIndex b.z with
      | some iz => .ok (b.z.getD iz 0)
      | none => .error .indexError
  match zHub with
  | .error e => .error e
  | .ok zHub =>
    match b.uRef with
    | some u => .ok (zHub, u)
    | none =>
      match argmin (b.z.map (fun x => |x - zHub|)), midIndex b.y with
      | some iz, some iy =>
        if iz < b.nz ∧ iy < b.ny then .ok (zHub, mean (series b.u b.nt 0 iy iz)) else .error .indexError
      | _, _ => .error .indexError

/-! ## Writing -/

/-- `ts[k].ravel()` -/
def gridVals (b : Box) (k : Nat) : List ℚ :=
  (List.range b.nt).flatMap fun it => (List.range b.ny).flatMap fun iy =>
    (List.range b.nz).map fun iz => b.u k it iy iz

def nTwr (b : Box) : Nat := match b.tower with | some (n, _) => n | none => 0

def towerAt (b : Box) : Tower := match b.tower with | some (_, f) => f | none => fun _ _ _ => 0

def towerVals (b : Box) (k : Nat) : List ℚ :=
  (List.range b.nt).flatMap fun it => (List.range (nTwr b)).map fun j => towerAt b k it j

/-- `min()` / `max()` of an array, `none` (ValueError) when empty -/
def minL : List ℚ → Option ℚ
  | [] => none
  | x :: xs => some (xs.foldl (fun a b => if a ≤ b then a else b) x)

def maxL : List ℚ → Option ℚ
  | [] => none
  | x :: xs => some (xs.foldl (fun a b => if b ≤ a then a else b) x)

/-- scale and offset of component `k` (turbsim_file.py:132-141) -/
def sclOff (st : Store4) (b : Box) (k : Nat) : Except Err (ℚ × ℚ) :=
  match minL (gridVals b k), maxL (gridVals b k) with
  | some mn, some mx =>
    let mn := if 0 < nTwr b then (match minL (towerVals b k) with | some m => min mn m | none => mn) else mn
    let mx := if 0 < nTwr b then (match maxL (towerVals b k) with | some m => max mx m | none => mx) else mx
    let scl := st.single (if mn = mx then 1 else 65535 / (mx - mn))
    .ok (scl, st.single (-32768 - scl * mn))
  | _, _ => .error .valueError

/-- `(x*scl + off).astype(np.int16)` (turbsim_file.py:142-143): truncation, then
two's complement -/
def code (so : ℚ × ℚ) (x : ℚ) : Int := wrap16 (truncQ (x * so.1 + so.2))

/-- an `int16` in memory -/
def enc16 (x : Int) : Bytes := leBytes 2 (x % 65536).toNat

/-- one time step of the grid in Fortran order: `out[:,it,:,:].tobytes(order='F')`
(turbsim_file.py:163) -/
def gridBytes (st : List (ℚ × ℚ)) (b : Box) (it : Nat) : Bytes :=
  (List.range b.nz).flatMap fun iz => (List.range b.ny).flatMap fun iy =>
    (List.range 3).flatMap fun k => enc16 (code (st.getD k (1, 0)) (b.u k it iy iz))

/-- `outTwr[:,it,:].tobytes(order='F')` (turbsim_file.py:164) -/
def towerBytes (st : List (ℚ × ℚ)) (b : Box) (it : Nat) : Bytes :=
  (List.range (nTwr b)).flatMap fun j =>
    (List.range 3).flatMap fun k => enc16 (code (st.getD k (1, 0)) (towerAt b k it j))

/-- first differences and first value: `(c[0], c[1]-c[0])` -/
def firstStep (c : List ℚ) : Except Err (ℚ × ℚ) :=
  match c with
  | a :: b :: _ => .ok (a, b - a)
  | _ => .error .indexError

/-- everything computed before the file is opened (turbsim_file.py:121-152) -/
structure Prep where
  so : List (ℚ × ℚ)
  z0 : ℚ
  dz : ℚ
  dy : ℚ
  dt : ℚ
  zHub : ℚ
  uHub : ℚ

def prepare (st : Store4) (b : Box) : Except Err Prep :=
  match sclOff st b 0, sclOff st b 1, sclOff st b 2 with
  | .ok so0, .ok so1, .ok so2 =>
    match firstStep b.z, firstStep b.y, firstStep b.t, hubValues b with
    | .ok (z0, dz), .ok (_, dy), .ok (_, dt), .ok (zHub, uHub) =>
      .ok ⟨[so0, so1, so2], z0, dz, dy, dt, zHub, uHub⟩
    | _, _, _, _ => .error .indexError
  | _, _, _ => .error .valueError

/-- `struct.pack('<h4l', ID, nz, ny, nTwr, nt)` (turbsim_file.py:155) -/
def header1 (ID : Int) (nz ny nTwr nt : Nat) : Option Bytes :=
  match packInt 2 ID, packInt 4 nz, packInt 4 ny, packInt 4 nTwr, packInt 4 nt with
  | some a, some b, some c, some d, some e => some (a ++ b ++ c ++ d ++ e)
  | _, _, _, _, _ => none

/-- the two blocks of six floats (turbsim_file.py:156-157) -/
def header2 (st : Store4) (p : Prep) : Bytes :=
  [p.dz, p.dy, p.dt, p.uHub, p.zHub, p.z0].flatMap st.enc ++
  ([0, 1, 2].flatMap fun k => st.enc (p.so.getD k (1, 0)).1 ++ st.enc (p.so.getD k (1, 0)).2)

/-- `info.encode()` -/
def encodeAscii (s : Str) : Bytes := s.map (fun c => UInt8.ofNat c.toNat)

/-- the writes to the opened file (turbsim_file.py:154-165), from the packed
pieces: a piece that cannot be packed stops the writing -/
def emit (h1 : Option Bytes) (h2 : Bytes) (n : Option Bytes) (data : Bytes) :
    Option Bytes × Except Err Unit :=
  match h1, n with
  | none, _ => (some [], .error .structError)
  | some h1, none => (some (h1 ++ h2), .error .structError)
  | some h1, some n => (some (h1 ++ (h2 ++ (n ++ data))), .ok ())

/-- `write` (turbsim_file.py:110-171): content of the file afterwards (`old` is
what was there), and the exception if any.  `ID` defaults to 7 (:124). -/
def write (st : Store4) (old : Option Bytes) (info : Str) (b : Box) :
    Option Bytes × Except Err Unit :=
  match prepare st b with
  | .error e => (old, .error e)
  | .ok p =>
    emit (header1 (b.ID.getD 7) b.nz b.ny (nTwr b) b.nt) (header2 st p) (packInt 4 info.length)
      (encodeAscii info ++
        (List.range b.nt).flatMap (fun it => gridBytes p.so b it ++ towerBytes p.so b it))

/-! ## Reading -/

structure Loaded where
  ID : Int
  nz : Nat
  ny : Nat
  nTwr : Nat
  nt : Nat
  so : List (ℚ × ℚ)
  /-- the integers of the grid and the tower, per time step -/
  frames : List (List Int × List Int)
  info : Str
  dt : ℚ
  y : List ℚ
  z : List ℚ
  t : List ℚ
  zTwr : List ℚ
  zRef : ℚ
  uRef : ℚ

/-- `self['u'][k,it,iy,iz]` after reading: the item at Fortran position of the
buffer, minus the offset, divided by the scale (turbsim_file.py:92-98) -/
def Loaded.u (l : Loaded) : Field := fun k it iy iz =>
  (((l.frames.getD it ([], [])).1.getD (k + 3 * (iy + l.ny * iz)) 0 : Int) - (l.so.getD k (1, 0)).2)
    / (l.so.getD k (1, 0)).1

/-- `self['uTwr'][k,it,j]` after reading (turbsim_file.py:94-101) -/
def Loaded.uTwr (l : Loaded) : Tower := fun k it j =>
  (((l.frames.getD it ([], [])).2.getD (k + 3 * j) 0 : Int) - (l.so.getD k (1, 0)).2)
    / (l.so.getD k (1, 0)).1

/-- `np.frombuffer(f.read(2*n), np.int16)` reshaped to `n` items; error when
fewer bytes are left. -/
def readInts (n : Nat) (bs : Bytes) : Except Err (List Int) :=
  let b := bs.take (2 * n)
  if b.length = 2 * n then .ok ((rowsOf 2 n b).map (unpackInt 2)) else .error .valueError

/-- the time loop (turbsim_file.py:91-95) -/
def readFrames (ng ntw : Nat) : Nat → Bytes → Except Err (List (List Int × List Int))
  | 0, _ => .ok []
  | nt + 1, bs =>
    match readInts ng bs with
    | .error e => .error e
    | .ok g =>
      match readInts ntw (bs.drop (2 * ng)) with
      | .error e => .error e
      | .ok w =>
        match readFrames ng ntw nt ((bs.drop (2 * ng)).drop (2 * ntw)) with
        | .error e => .error e
        | .ok rest => .ok ((g, w) :: rest)

/-- `y`: `arange(ny)*dy` centred (turbsim_file.py:106-107) -/
def yOf (ny : Nat) (dy : ℚ) : List ℚ :=
  let y := (List.range ny).map (fun (i : Nat) => (i : ℚ) * dy)
  y.map (fun a => a - mean y)

/-- `self.read(filename)` on the bytes of the file (turbsim_file.py:76-108).
Negative sizes make `np.zeros` raise ValueError. -/
def read (st : Store4) (bs : Bytes) : Except Err Loaded :=
  if bs = [] then .error .emptyFile
  else if bs.length < 70 then .error .structError
  else
    let int (o w : Nat) : Int := unpackInt w ((bs.drop o).take w)
    let flt (o : Nat) : ℚ := st.dec ((bs.drop o).take 4)
    let nChar := int 66 4
    let body := bs.drop 70
    let infoB := if nChar < 0 then body else body.take nChar.toNat
    let data := if nChar < 0 then [] else body.drop nChar.toNat
    if infoB.any (fun b => 128 ≤ b) then .error .unicodeError
    else if int 2 4 < 0 ∨ int 6 4 < 0 ∨ int 10 4 < 0 ∨ int 14 4 < 0 then .error .valueError
    else
      let nz := (int 2 4).toNat; let ny := (int 6 4).toNat
      let nTwr := (int 10 4).toNat; let nt := (int 14 4).toNat
      match readFrames (3 * (ny * nz)) (3 * nTwr) nt data with
      | .error e => .error e
      | .ok frames =>
        .ok { ID := int 0 2, nz := nz, ny := ny, nTwr := nTwr, nt := nt
              so := [(flt 42, flt 46), (flt 50, flt 54), (flt 58, flt 62)]
              frames := frames
              info := infoB.map (fun b => Char.ofNat b.toNat)
              dt := flt 26
              y := yOf ny (flt 22)
              z := (List.range nz).map (fun (i : Nat) => (i : ℚ) * flt 18 + flt 38)
              t := (List.range nt).map (fun (i : Nat) => (i : ℚ) * flt 26)
              zTwr := (List.range nTwr).map (fun (i : Nat) => -((i : ℚ) * flt 18) + flt 38)
              zRef := flt 34
              uRef := flt 30 }

/-! ## Views: `u = ts['u'][...]` is a view, `u -= np.mean(u)` writes through it -/

/-- a box in memory for the analysis functions -/
structure Sizes where
  nt : Nat
  ny : Nat
  nz : Nat
  y : List ℚ
  z : List ℚ

/-- `_longiline(iy0, iz0, removeMean)` (turbsim_file.py:241-254): the field
afterwards; the returned lines are the series of that field. -/
def longiline (s : Sizes) (iy0 iz0 : Nat) (removeMean : Bool) (u : Field) : Field :=
  if removeMean then fun k it iy iz =>
    if k < 3 ∧ it < s.nt ∧ iy = iy0 ∧ iz = iz0 then u k it iy iz - mean (series u s.nt k iy0 iz0)
    else u k it iy iz
  else u

/-- `_latline` (turbsim_file.py:256-270) -/
def latline (s : Sizes) (ix0 iz0 : Nat) (removeMean : Bool) (u : Field) : Field :=
  if removeMean then fun k it iy iz =>
    if k < 3 ∧ it = ix0 ∧ iy < s.ny ∧ iz = iz0 then
      u k it iy iz - mean ((List.range s.ny).map (fun j => u k ix0 j iz0))
    else u k it iy iz
  else u

/-- `_vertline` (turbsim_file.py:272-286) -/
def vertline (s : Sizes) (ix0 iy0 : Nat) (removeMean : Bool) (u : Field) : Field :=
  if removeMean then fun k it iy iz =>
    if k < 3 ∧ it = ix0 ∧ iy = iy0 ∧ iz < s.nz then
      u k it iy iz - mean ((List.range s.nz).map (fun j => u k ix0 iy0 j))
    else u k it iy iz
  else u

/-- `crosscorr_y` (turbsim_file.py:351-367): field afterwards -/
def crosscorrY (s : Sizes) (iy0 iz0 : Nat) (u : Field) : Field :=
  (List.range s.ny).foldl (fun u iy => longiline s iy iz0 true u) (longiline s iy0 iz0 true u)

/-- `crosscorr_z` (turbsim_file.py:369-386) -/
def crosscorrZ (s : Sizes) (iy0 iz0 : Nat) (u : Field) : Field :=
  (List.range s.nz).foldl (fun u iz => longiline s iy0 iz true u) (longiline s iy0 iz0 true u)

/-- `csd_longi`, `csd_lat`, `csd_vert` (turbsim_file.py:389-438): field
afterwards (the spectra themselves come from scipy) -/
def csdLongi (s : Sizes) (iy0 iz0 : Nat) (u : Field) : Field := longiline s iy0 iz0 true u
def csdLat (s : Sizes) (ix0 iz0 : Nat) (u : Field) : Field := latline s ix0 iz0 true u
def csdVert (s : Sizes) (ix0 iy0 : Nat) (u : Field) : Field := vertline s ix0 iy0 true u

/-- `toDataFrame` (turbsim_file.py:579-649) at the mid indices: the field
afterwards and the `ZMidLine` frame (three series) -/
def toDataFrame (s : Sizes) (iy iz : Nat) (u : Field) : Field × List (List ℚ) :=
  let line := [series u s.nt 0 iy iz, series u s.nt 1 iy iz, series u s.nt 2 iy iz]
  let u1 := crosscorrY s iy iz u
  let u2 := crosscorrZ s iy iz u1
  let u3 := csdLongi s iy iz u2
  let u4 := csdLat s (s.nt / 2) iz u3
  let u5 := csdVert s (s.nt / 2) iy u4
  (u5, line)

/-! ## Modifiers -/

/-- `scale(new_mean, new_std, component, ...)` (turbsim_file.py:473-506) with
reference point `(iy, iz)`; `r` is `new_std/old_std` when `new_std` is given (the
square root is outside the model). -/
def scale (s : Sizes) (c iy iz : Nat) (newMean r : Option ℚ) (u : Field) : Field :=
  let oldMean := mean (series u s.nt c iy iz)
  fun k it jy jz =>
    if k = c ∧ it < s.nt ∧ jy < s.ny ∧ jz < s.nz then
      let pm := mean (series u s.nt c jy jz)
      let v := (match r with | some r => (u k it jy jz - pm) * r | none => u k it jy jz - pm) + pm
      match newMean with
      | some m => v + (-oldMean + m)
      | none => v
    else u k it jy jz

/-- state for `makePeriodic`: `u` and `uTwr` may be absent -/
structure PState where
  nt : Nat
  u : Option Field
  t : List ℚ
  uTwr : Option Tower
  ID : Option Int

/-- the mirrored series: first `nt0` samples, then samples `nt0-2, ..., 1`
(`np.flip(u[:,1:-1],axis=1)`, turbsim_file.py:516-517) -/
def mirrored (nt0 : Nat) (f : Nat → ℚ) (i : Nat) : ℚ :=
  if i < nt0 then f i else f ((nt0 - 2) - (i - nt0))

/-- `makePeriodic` (turbsim_file.py:508-529).  `u` is deleted before the time
vector is looked at.  The assignments need `len(t) = nt0` (a single sample would
be broadcast by numpy; that case, `nt0 = 3` with another `len(t)`, is reported as
an error here). -/
def makePeriodic (s : PState) : PState × Except Err Unit :=
  match s.u with
  | none => (s, .error .indexError)
  | some u =>
    match firstStep s.t with
    | .error e => ({ s with u := none }, .error e)
    | .ok (_, dt) =>
      let nt := 2 * s.t.length - 2
      if s.t.length = s.nt then
        ({ nt := nt
           u := some (fun k it iy iz => mirrored s.nt (fun i => u k i iy iz) it)
           t := (List.range nt).map (fun (i : Nat) => (i : ℚ) * dt)
           uTwr := s.uTwr.map (fun w k it j => mirrored s.nt (fun i => w k i j) it)
           ID := some 8 }, .ok ())
      else ({ s with u := none }, .error .valueError)

end Verif.TurbSim
