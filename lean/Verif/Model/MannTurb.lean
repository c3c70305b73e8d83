import Verif.Model.Mann
import Verif.Model.TurbSim
import Verif.Model.FastLine
/-!
# Conversions between TurbSim and Mann boxes, probes

`MannBoxFile.fromTurbSim` (`/repo/weio/mannbox_file.py` 309-324), `TurbSimFile.fromMannBox`,
`toMannBox`, `writeProbes` (`/repo/weio/turbsim_file.py` 663-732, 748-766).

Numbers are rationals; the storage of a number in 4 bytes is the parameter `Mann.Store`.  Numbers too
large for 4 bytes (OverflowError of `struct.pack`) are not modelled, nor is the text of `info` (700).
-/
namespace Verif.MannTurb
open Verif.Py Verif.Mann
open Verif.TurbSim (Box Field midIndex)

/-- exceptions: division by zero (turbsim_file.py:682-683), `Exception` for a decreasing `y` (686), IndexError of
`y[0]` (685) and of the hub values (705), ValueError of arrays which do not fit (689-691), TypeError of
`os.path.splitext(None)` (721) -/
inductive Err where
  | zeroDivision | decreasing | index | value | type
deriving Repr, DecidableEq

/-- `u[k,:,:,:]` (mannbox_file.py:317-323), as planes of rows -/
def planes (nt ny nz : Nat) (f : Nat → Nat → Nat → ℚ) : List (List (List ℚ)) :=
  (List.range nt).map (fun it => (List.range ny).map (fun iy => (List.range nz).map (fun iz => f it iy iz)))

/-- `np.mean(u[0,:,:,:],axis=0)` (mannbox_file.py:317) at a point -/
def timeMean (b : Box) (k iy iz : Nat) : ℚ := mean (TurbSim.series b.u b.nt k iy iz)

/-- `fromTurbSim` (mannbox_file.py:309-324): the field of component `k` -/
def fromTurbSim (b : Box) (k : Nat) (removeConstant : Option ℚ) (removeAllMean : Bool) : List (List (List ℚ)) :=
  if k = 0 then
    if removeAllMean then planes b.nt b.ny b.nz (fun it iy iz => b.u 0 it iy iz - timeMean b 0 iy iz)
    else
      match removeConstant with
      | some c => planes b.nt b.ny b.nz (fun it iy iz => b.u 0 it iy iz - c)
      | none => planes b.nt b.ny b.nz (b.u 0)
  else planes b.nt b.ny b.nz (b.u k)

/-- `os.path.splitext(filename)[0]` (turbsim_file.py:721) -/
def root (f : Str) : Str := f.take (f.length - (Detect.splitextExt f).length)

/-- `base+'_{}x{}x{}'.format(*self['u'].shape[1:])` (turbsim_file.py:722) -/
def sized (base : Str) (b : Box) : Str :=
  base ++ '_' :: (FastLine.showInt (b.nt : Int) ++ 'x' :: (FastLine.showInt (b.ny : Int) ++ 'x' :: FastLine.showInt (b.nz : Int)))

/-- a file system -/
abbrev FS := Str → Option Bytes

/-- opening a file for writing and writing it (mannbox_file.py:159-163) -/
def put (fs : FS) (name : Str) (bs : Bytes) : FS := fun n => if n = name then some bs else fs n

/-- `toMannBox` (turbsim_file.py:707-732) -/
def toMannBox (st : Store ℚ) (fs : FS) (b : Box) (filename base : Option Str) (removeUConstant : Option ℚ) (removeAllUMean : Bool) :
    Except Err FS := do
  let base ←
    match base with
    | some s => .ok s
    | none =>
      match filename with
      | some f => .ok (root f)
      | none => .error Err.type
  let n := sized base b
  let fs := put fs (n ++ ".u".toList) (write st (fromTurbSim b 0 removeUConstant removeAllUMean))
  let fs := put fs (n ++ ".v".toList) (write st (fromTurbSim b 1 none false))
  .ok (put fs (n ++ ".w".toList) (write st (fromTurbSim b 2 none false)))

/-- an array of three dimensions -/
structure Arr where
  nt : Nat
  ny : Nat
  nz : Nat
  f : Nat → Nat → Nat → ℚ

/-- the array of a list of planes -/
def arr (nt ny nz : Nat) (l : List (List (List ℚ))) : Arr :=
  ⟨nt, ny, nz, fun it iy iz => ((l.getD it []).getD iy []).getD iz 0⟩

/-- `self['u'][k,:,:,:] = a` (turbsim_file.py:689-691): numpy repeats an array along the dimensions in which
it has one element, and raises ValueError for other dimensions -/
def fit (nt ny nz : Nat) (a : Arr) : Except Err (Nat → Nat → Nat → ℚ) :=
  if (a.nt = nt ∨ a.nt = 1) ∧ (a.ny = ny ∨ a.ny = 1) ∧ (a.nz = nz ∨ a.nz = 1) then
    .ok (fun it iy iz => a.f (if a.nt = 1 then 0 else it) (if a.ny = 1 then 0 else iy) (if a.nz = 1 then 0 else iz))
  else .error .value

/-- `fromMannBox` (turbsim_file.py:663-705) on the object `b`; `addU` is a number or None -/
def fromMannBox (b : Box) (u v w : Arr) (dx U : ℚ) (y z : List ℚ) (addU : Option ℚ) : Except Err Box :=
  if U = 0 ∨ dx / U = 0 then .error .zeroDivision
  else
    let t := arange 0 (dx / U * ((u.nt : ℚ) - 1 / 2)) (dx / U)
    match y.head?, y.getLast? with
    | some a, some c =>
      if a > c then .error .decreasing
      else do
        let fu ← fit t.length u.ny u.nz u
        let fv ← fit t.length u.ny u.nz v
        let fw ← fit t.length u.ny u.nz w
        let b' : Box :=
          { b with
            nt := t.length, ny := u.ny, nz := u.nz
            u := fun k it iy iz => if k = 0 then fu it iy iz + addU.getD 0 else if k = 1 then fv it iy iz else fw it iy iz
            t := t, y := y, z := z, ID := some 7, zRef := none, uRef := none }
        match TurbSim.hubValues b' with
        | .ok (zHub, uHub) => .ok { b' with zRef := some zHub, uRef := some uHub }
        | .error _ => .error .index
    | _, _ => .error .index

/-- a table: names of the columns, rows -/
structure Table where
  cols : List Str
  rows : List (List ℚ)

/-- the columns of a probe (turbsim_file.py:759-763): names and values; `fmt0 x` is `'{:.0f}'.format(x)`.
`none` is the ValueError of `argmin` of an empty array or the IndexError of `ts['u'][0,:,iy,iz]`. -/
def probe (fmt0 : ℚ → Str) (b : Box) (y z : ℚ) : Option (List (Str × (Nat → ℚ))) :=
  match closestPoint b.y b.z y z with
  | none => none
  | some (iy, iz) =>
    if iy < b.ny ∧ iz < b.nz then
      let lbl := "_y".toList ++ fmt0 (b.y.getD iy 0) ++ "_z".toList ++ fmt0 (b.z.getD iz 0)
      some ([('u', 0), ('v', 1), ('w', 2)].map (fun ck => (ck.1 :: (lbl ++ "_[m/s]".toList), fun it => b.u ck.2 it iy iz)))
    else none

/-- what `writeProbes` writes (turbsim_file.py:748-766): the names after `# ` and the rows; the array of times
has as many elements as there are time steps -/
def writeProbes (fmt0 : ℚ → Str) (b : Box) (ys zs : List ℚ) : Option Table := do
  let cs ← (ys.flatMap (fun y => zs.map (fun z => (y, z)))).mapM (fun p => probe fmt0 b p.1 p.2)
  let c := cs.flatten
  some ⟨"Time_[s]".toList :: c.map Prod.fst,
    (List.range b.nt).map (fun it => b.t.getD it 0 :: c.map (fun x => x.2 it))⟩

end Verif.MannTurb
