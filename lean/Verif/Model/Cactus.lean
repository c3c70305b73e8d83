import Verif.Py.Str
import Mathlib.Algebra.Field.Basic
import Mathlib.Data.List.Sort
/-!
# CACTUS files

`/repo/weio/cactus_file.py`.  Values are those of a field `F` (exact arithmetic); `cos`, `sin`, `π` and `mod` are parameters.  The namelist
(61-63) and the tables of `CSVFile` (97, 114, 124) are given.  A frame is the list of its columns; frames with two columns of the same
name are left out (`unmodelled`).
-/
namespace Verif.Cactus
open Verif.Py

/-- exceptions -/
inductive Err where
  | index       -- IndexError
  | key         -- KeyError
  | value       -- ValueError of pandas: a column that is there already, or of another length, or another number of names
  | type        -- TypeError: `df,c = None` (373)
  | unpack      -- ValueError or TypeError: `df,c = df` (374)
  | unmodelled  -- a name that two columns have
deriving DecidableEq, Repr

/-! ## The geometry file -/

/-- a value of the geometry file (79-85) -/
inductive GVal (F : Type) where
  | num (x : F)
  | vec (xs : List F)
  | text (s : Str)
deriving DecidableEq, Repr

/-- the value of a text (79-84); `flt` is `float` of a word -/
def gval (flt : Str → Option F) (s : Str) : GVal F :=
  match (words s).mapM flt with
  | some [x] => .num x
  | some xs => .vec xs
  | none => .text s

/-- a line (74-85) -/
def geomLine (flt : Str → Option F) (line : Str) : Except Err (Option (Str × GVal F)) :=
  let line := (splitOn '!' (strip line)).headD []
  let sp := splitOn ':' (strip line)
  let key := lower (strip (sp.headD []))
  if key = [] then .ok none
  else
    match sp with
    | _ :: v :: _ => .ok (some (key, gval flt v))
    | _ => .error .index

/-- `geom[key]=value` (85), if the line has a key -/
def store (acc : List (Str × GVal F)) : Option (Str × GVal F) → List (Str × GVal F)
  | none => acc
  | some kv => acc.filter (fun x => x.1 ≠ kv.1) ++ [kv]

/-- the loop (72-87): lines up to that with number 10 -/
def geomLines (flt : Str → Option F) : Nat → List (Str × GVal F) → List Str → Except Err (List (Str × GVal F))
  | _, acc, [] => .ok acc
  | i, acc, l :: ls =>
    match geomLine flt l with
    | .error e => .error e
    | .ok r =>
      if i = 10 then .ok (store acc r) else geomLines flt (i + 1) (store acc r) ls

/-- `geom[key]` -/
def geomGet (g : List (Str × GVal F)) (k : Str) : Option (GVal F) := (g.find? fun x => decide (x.1 = k)).map Prod.snd

/-! ## Frames -/

/-- a frame: number of rows, columns -/
structure Frame (F : Type) where
  rows : Nat
  cols : List (Str × List F)
deriving DecidableEq, Repr

/-- `df[name]` -/
def get (d : Frame F) (name : Str) : Except Err (List F) :=
  match d.cols.filter (fun x => x.1 = name) with
  | [] => .error .key
  | [x] => .ok x.2
  | _ => .error .unmodelled

/-- `df.insert(c, name, vals)` -/
def insert (d : Frame F) (c : Nat) (name : Str) (vals : List F) : Except Err (Frame F) :=
  if name ∈ d.cols.map Prod.fst then .error .value
  else if vals.length ≠ d.rows then .error .value
  else .ok { d with cols := d.cols.take c ++ (name, vals) :: d.cols.drop c }

/-- a column to insert: its name and how it is computed from the frame -/
abbrev Item (F : Type) := Str × ((Str → Except Err (List F)) → Except Err (List F))

/-- `df.insert(c, …); c+=1`, for several columns -/
def inserts : Frame F → Nat → List (Item F) → Except Err (Frame F × Nat)
  | d, c, [] => .ok (d, c)
  | d, c, (n, f) :: is =>
    match f (get d) with
    | .error e => .error e
    | .ok v =>
      match insert d c n v with
      | .error e => .error e
      | .ok d => inserts d (c + 1) is

/-- the first value replaced by the second -/
def second : List F → List F
  | _ :: b :: r => b :: b :: r
  | r => r

/-- `df[name].values[0]=df[name].values[1]` (237, 263) -/
def fixFirst (d : Frame F) (name : Str) : Except Err (Frame F) :=
  if d.rows < 2 then .error .index
  else .ok { d with cols := d.cols.map fun x => if x.1 = name then (x.1, second x.2) else x }

/-! ## The table -/

/-- labels of the time data file (97-104): the first eight, then four numbered ones for each blade; the frame and the number of blades -/
def timeFrame (d : Frame F) : Except Err (Frame F × Nat) :=
  let names := d.cols.map Prod.fst
  let n := names.count "Blade Fx Coeff. (-)".toList
  let cols := names.take 8 ++ (List.range n).flatMap fun i : Nat =>
    [" Fx Coeff. (-)", " Fy Coeff. (-)", " Fz Coeff. (-)", " Torque Coeff. (-)"].map fun b => "Blade".toList ++ Nat.toDigits 10 (i + 1) ++ b.toList
  if cols.length ≠ names.length then .error .value
  else .ok ({ d with cols := cols.zip (d.cols.map Prod.snd) }, n)

/-- numbers of the case: `nr`, `nti`, `rpm`, `ut`, `rho`; `refr`, `refar` of the geometry and whether it has a file -/
structure Case (F : Type) where
  nr : Nat
  nti : Nat
  rpm : F
  ut : F
  rho : F
  refr : F
  refar : F
  hasGeom : Bool

/-- `cos`, `sin`, `π`, `np.mod(x, 360)`, and the azimuths `np.linspace(0,2*np.pi,nBld+1)[:-1]` -/
structure Trig (F : Type) where
  cos : F → F
  sin : F → F
  pi : F
  mod : F → F

section
variable {F : Type} [Field F]

/-- feet per metre (153, 164) -/
def feet : F := 328084 / 100000

/-- `omega` (132-133) -/
def omega (T : Trig F) (k : Case F) : F := k.rpm * 2 * T.pi / 60

/-- `dt` (144-148) -/
def dt (T : Trig F) (k : Case F) : F := (2 * T.pi / omega T k) / (k.nti : F)

/-- `R` (151-156) -/
def radius (k : Case F) : F := if k.hasGeom then k.refr / feet else 1

/-- `A` (159-167) -/
def area (k : Case F) : F := k.refar * k.refr ^ 2 / feet ^ 2

/-- `U` (170-171, 204) -/
def speed (T : Trig F) (k : Case F) : F := omega T k * radius k / k.ut

/-- `time` (175-180) -/
def time (T : Trig F) (k : Case F) : List F := (List.range (k.nr * k.nti)).map fun i : Nat => (i : F) * dt T k

/-- `rho` (191) -/
def density (k : Case F) : F := k.rho * (12 / 10) / (2328 / 1000000)

/-- `F0` (211) -/
def force0 (T : Trig F) (k : Case F) : F := 5 / 10 * density k * area k * speed T k ^ 2

/-- `P0` (210) -/
def power0 (T : Trig F) (k : Case F) : F := 5 / 10 * density k * area k * speed T k ^ 3

/-- `Q0` (212) -/
def torque0 (T : Trig F) (k : Case F) : F := 5 / 10 * density k * area k * speed T k ^ 2 * radius k

/-- a column times a number -/
def scaled (name : String) (f : F → F) : (Str → Except Err (List F)) → Except Err (List F) :=
  fun g => match g name.toList with
  | .error e => .error e
  | .ok v => .ok (v.map f)

/-- a column from two columns and an angle -/
def rotated (a b : Str) (ang : List F) (f : F → F → F → F) : (Str → Except Err (List F)) → Except Err (List F) :=
  fun g => match g a with
  | .error e => .error e
  | .ok u =>
    match g b with
    | .error e => .error e
    | .ok v => .ok ((ang.zip (u.zip v)).map fun x => f x.1 x.2.1 x.2.2)

/-- a given column -/
def const (v : List F) : (Str → Except Err (List F)) → Except Err (List F) := fun _ => .ok v

/-- columns of the rotor (220-236) -/
def rotorItems (T : Trig F) (k : Case F) (time : List F) : List (Item F) :=
  let theta := time.map fun t => t * omega T k
  let F0 := force0 T k
  let Q0 := torque0 T k
  let P0 := power0 T k
  [("Time_[s]".toList, const time),
   ("Azimuth_[deg]".toList, const (theta.map fun a => T.mod (a * 180 / T.pi))),
   ("HWindSpeedX_[m/s]".toList, const (time.map fun _ => speed T k * 1)),
   ("RtAeroCp_[-]".toList, scaled "Power Coeff. (-)" id),
   ("RtAeroCq_[-]".toList, scaled "Torque Coeff. (-)" id),
   ("ZAeroFxg_[N]".toList, scaled "Fx Coeff. (-)" (· * F0)),
   ("ZAeroFyg_[N]".toList, scaled "Fz Coeff. (-)" (fun x => -x * F0)),
   ("ZAeroFzg_[N]".toList, scaled "Fy Coeff. (-)" (· * F0)),
   ("ZAeroMzg_[N-m]".toList, scaled "Torque Coeff. (-)" (· * Q0)),
   ("RtAeroFxh_[N]".toList, scaled "Fy Coeff. (-)" (· * F0)),
   ("RtAeroFyh_[N]".toList, rotated "Fx Coeff. (-)".toList "Fz Coeff. (-)".toList theta fun a x z => (T.cos a * x - T.sin a * z) * F0),
   ("RtAeroFzh_[N]".toList, rotated "Fx Coeff. (-)".toList "Fz Coeff. (-)".toList theta fun a x z => -(T.cos a * z + T.sin a * x) * F0),
   ("RtAeroMxh_[N-m]".toList, scaled "Torque Coeff. (-)" (· * Q0)),
   ("RtAeroPwr_[W]".toList, scaled "Power Coeff. (-)" (· * P0))]

/-- columns of a blade (250-261); `b` is its number, `azi` its azimuth -/
def bladeItems (T : Trig F) (k : Case F) (time : List F) (b : Str) (azi : F) : List (Item F) :=
  let psi := time.map fun t => t * omega T k - azi
  let F0 := force0 T k
  let Q0 := torque0 T k
  let col (s : String) : Str := "Blade".toList ++ b ++ s.toList
  let one (s : String) (f : F → F) : (Str → Except Err (List F)) → Except Err (List F) := fun g => match g (col s) with
    | .error e => .error e
    | .ok v => .ok (v.map f)
  [("Y".toList ++ b ++ "AeroFxb_[N]".toList, rotated (col " Fx Coeff. (-)") (col " Fz Coeff. (-)") psi fun a x z => -(T.cos a * z + T.sin a * x) * F0),
   ("Y".toList ++ b ++ "AeroFyb_[N]".toList, rotated (col " Fx Coeff. (-)") (col " Fz Coeff. (-)") psi fun a x z => (T.cos a * x - T.sin a * z) * F0),
   ("Y".toList ++ b ++ "AeroFzb_[N]".toList, one " Fy Coeff. (-)" (fun x => -x * F0)),
   ("Y".toList ++ b ++ "AeroMxb_[N-m]".toList, one " Torque Coeff. (-)" (· * Q0)),
   ("Y".toList ++ b ++ "AeroPwr_[W]".toList, one " Torque Coeff. (-)" (fun x => x * Q0 * omega T k)),
   ("Z".toList ++ b ++ "AeroFxg_[N]".toList, one " Fx Coeff. (-)" (· * F0)),
   ("Z".toList ++ b ++ "AeroFyg_[N]".toList, one " Fz Coeff. (-)" (fun x => -x * F0)),
   ("Z".toList ++ b ++ "AeroFzg_[N]".toList, one " Fy Coeff. (-)" (· * F0)),
   ("Z".toList ++ b ++ "AeroMzg_[N-m]".toList, one " Torque Coeff. (-)" (· * Q0))]

/-- the loop over the blades (249-263) -/
def blades (T : Trig F) (k : Case F) (time : List F) : Frame F → Nat → List (Str × F) → Except Err (Frame F × Nat)
  | d, c, [] => .ok (d, c)
  | d, c, (b, azi) :: bs =>
    match inserts d c (bladeItems T k time b azi) with
    | .error e => .error e
    | .ok (d, c) =>
      match fixFirst d ("Y".toList ++ b ++ "AeroPwr_[W]".toList) with
      | .error e => .error e
      | .ok d => blades T k time d c bs

/-- `timeDataToOpenFAST` (183-267) for a frame -/
def timeData (T : Trig F) (k : Case F) (nBld : Nat) (d : Frame F) : Except Err (Frame F × Nat) :=
  let t := time T k
  let t := if d.rows < t.length then t.take d.rows else t
  match inserts d 0 (rotorItems T k t) with
  | .error e => .error e
  | .ok (d, c) =>
    match fixFirst d "RtAeroPwr_[W]".toList with
    | .error e => .error e
    | .ok d =>
      match inserts d c [("RotSpeed_[rpm]".toList, const (t.map fun _ => k.rpm * 1))] with
      | .error e => .error e
      | .ok (d, c) =>
        match blades T k t d c ((List.range nBld).map fun i : Nat => (Nat.toDigits 10 (i + 1), (2 * T.pi / (nBld : F)) * (i : F))) with
        | .error e => .error e
        | .ok (d, c) => inserts d c [("Wind1VelX_[m/s]".toList, const (t.map fun _ => speed T k * 1))]

/-- rows of the element data or dynamic stall file: number of the blade, of the element, and the other values by label -/
structure Row (F : Type) where
  blade : Int
  elem : Int
  val : Str → Option F

/-- `dfSec[name].values`; all rows have the same labels -/
def secCol (sec : List (Row F)) (name : String) : Except Err (List F) :=
  match sec.mapM fun r => r.val name.toList with
  | none => .error .key
  | some v => .ok v

/-- a column of a section, changed -/
def secItem (sec : List (Row F)) (name : String) (f : F → F) : (Str → Except Err (List F)) → Except Err (List F) := fun _ =>
  match secCol sec name with
  | .error e => .error e
  | .ok v => .ok (v.map f)

/-- two columns of a section, and an angle -/
def secItem2 (sec : List (Row F)) (a b : String) (ang : List F) (f : F → F → F → F) : (Str → Except Err (List F)) → Except Err (List F) := fun _ =>
  match secCol sec a with
  | .error e => .error e
  | .ok u =>
    match secCol sec b with
    | .error e => .error e
    | .ok v => .ok ((ang.zip (u.zip v)).map fun x => f x.1 x.2.1 x.2.2)

/-- `'{:03d}'` of a number that is not negative -/
def pad3 (n : Nat) : Str := List.replicate (3 - (Nat.toDigits 10 n).length) '0' ++ Nat.toDigits 10 n

/-- `'AB{:d}N{:03d}'` (314); numbers of blades and elements are not negative -/
def nodeName (iB ie : Int) (s : String) : Str := "AB".toList ++ Nat.toDigits 10 iB.toNat ++ "N".toList ++ pad3 ie.toNat ++ s.toList

/-- columns of a section (307-338); `s` is `alphaSign` -/
def elemItems (T : Trig F) (k : Case F) (s : F) (psi : List F) (iB ie : Int) (sec : List (Row F)) : List (Item F) :=
  let U := speed T k
  let R := radius k
  let alpha := match secCol sec "AOA25 (deg)" with
    | .error _ => []
    | .ok v => v.map fun x => x * T.pi / 180
  [(nodeName iB ie "Alpha_[deg]", secItem sec "AOA25 (deg)" (s * ·)),
   (nodeName iB ie "Alpha50_[deg]", secItem sec "AOA50 (deg)" (s * ·)),
   (nodeName iB ie "Alpha75_[deg]", secItem sec "AOA75 (deg)" (s * ·)),
   (nodeName iB ie "Cl_[-]", secItem sec "CL (-)" (s * ·)),
   (nodeName iB ie "Cd_[-]", secItem sec "CD (-)" id),
   (nodeName iB ie "Cm_[-]", secItem sec "CM25 (-)" (s * ·)),
   (nodeName iB ie "Cn_[-]", secItem sec "CN (-)" (s * ·)),
   (nodeName iB ie "Ct_[-]", secItem sec "CT (-)" (s * ·)),
   (nodeName iB ie "Ct2_[-]", secItem2 sec "CL (-)" "CD (-)" alpha fun a l d => s * (-l * T.sin a + d * T.cos a)),
   (nodeName iB ie "Cxg_[-]", secItem sec "Fx (-)" id),
   (nodeName iB ie "Cyg_[-]", secItem sec "Fz (-)" fun x => -x),
   (nodeName iB ie "Czg_[-]", secItem sec "Fy (-)" id),
   (nodeName iB ie "ClC_[-]", secItem sec "CLCirc (-)" (s * ·)),
   (nodeName iB ie "Re_[-]", secItem sec "Re (-)" (· / 1000000)),
   (nodeName iB ie "Gam_[m^2/s]", secItem sec "GB (?)" fun x => s * x * U * R),
   (nodeName iB ie "Vrel_[m/s]", secItem sec "Ur (-)" (· * U)),
   (nodeName iB ie "Vindx_[m/s]", secItem2 sec "IndU (-)" "IndW (-)" psi fun a x z => -(T.cos a * (z * U) + T.sin a * (x * U))),
   (nodeName iB ie "Vindy_[m/s]", secItem2 sec "IndU (-)" "IndW (-)" psi fun a x z => T.cos a * (x * U) - T.sin a * (z * U))]

/-- columns of the dynamic stall file (341-345) -/
def dsItems (s : F) (iB ie : Int) (sec : List (Row F)) : List (Item F) :=
  [(nodeName iB ie "alpha_34_[deg]", secItem sec "alpha (deg)" (s * ·)),
   (nodeName iB ie "alphaE_[deg]", secItem sec "alrefL (deg)" (s * ·)),
   (nodeName iB ie "alphaED_[deg]", secItem sec "alrefD (deg)" (s * ·)),
   (nodeName iB ie "adotnorm_[-]", secItem sec "adotnorm (-)" (s * ·))]

/-- `np.concatenate(([0],np.diff(-alpha)))` (360) -/
def diffs : List F → List F
  | [] => [0]
  | a :: l => 0 :: (List.zip (a :: l) l).map fun x => -x.2 - -x.1

/-- columns of the `try` (347-360), and whether `c` is moved after them -/
def tryItems (s : F) (iB ie : Int) (sec : List (Row F)) : List (Bool × Item F) :=
  [(true, nodeName iB ie "activeL_[-]", secItem sec "DynamicFlagL" id),
   (true, nodeName iB ie "activeD_[-]", secItem sec "DynamicFlagD" id),
   (true, nodeName iB ie "alphaLagD_[deg]", secItem sec "alphaLagD (deg)" (s * ·)),
   (true, nodeName iB ie "delP_[-]", secItem sec "delN" id),
   (true, nodeName iB ie "delN_[-]", secItem sec "delP" id),
   (true, nodeName iB ie "transA_[-]", secItem sec "transA" id),
   (true, nodeName iB ie "gammaL_[-]", secItem sec "gammaL" id),
   (true, nodeName iB ie "gammaD_[-]", secItem sec "gammaD" id),
   (true, nodeName iB ie "dalphaL_[deg]", secItem sec "dalphaL (deg)" (s * ·)),
   (false, nodeName iB ie "dalphaD_[deg]", fun g => secItem2 sec "alpha (deg)" "alrefD (deg)" (sec.map fun _ => 0) (fun _ x y => s * (x - y)) g),
   (true, nodeName iB ie "Tu_[s]", secItem sec "Tu" id),
   (true, nodeName iB ie "alphaDot_[rad/s]", secItem sec "alphadot" (s * ·)),
   (false, nodeName iB ie "alphaDot2_[rad/s]", fun _ => match secCol sec "alpha (deg)" with
      | .error e => .error e
      | .ok v => .ok (diffs v))]

/-- the `try` (347-362): the first exception ends it -/
def tryInserts : Frame F → Nat → List (Bool × Item F) → Frame F × Nat
  | d, c, [] => (d, c)
  | d, c, (m, n, f) :: is =>
    match f (get d) with
    | .error _ => (d, c)
    | .ok v =>
      match insert d c n v with
      | .error _ => (d, c)
      | .ok d => tryInserts d (if m then c + 1 else c) is

/-- `azimuth[iB-1]` (299), negative indices counting from the end -/
def azimuth (T : Trig F) (nBld : Nat) (iB : Int) : Except Err F :=
  let i := iB - 1
  let j := if i < 0 then i + nBld else i
  if 0 ≤ j ∧ j < nBld then .ok ((2 * T.pi / (nBld : F)) * ((j.toNat : Nat) : F)) else .error .index

/-- `np.unique(…).astype(int)` -/
def unique (l : List Int) : List Int := l.dedup.insertionSort (· ≤ ·)

/-- a section (302-362) -/
def element (T : Trig F) (k : Case F) (s : F) (psi : List F) (iB : Int) (bld : List (Row F)) (ds : Option (List (Row F))) (d : Frame F) (c : Nat) (ie : Int) :
    Except Err (Frame F × Nat) :=
  let sec := bld.filter fun r => r.elem = ie
  if sec.length ≠ d.rows then .ok (d, c)
  else
    match secCol sec "IndV (-)" with
    | .error e => .error e
    | .ok _ =>
    match inserts d c (elemItems T k s psi iB ie sec) with
    | .error e => .error e
    | .ok (d, c) =>
      match ds with
      | none => .ok (d, c)
      | some rows =>
        let secDS := rows.filter fun r => r.elem = ie
        match inserts d c (dsItems s iB ie secDS) with
        | .error e => .error e
        | .ok (d, c) => .ok (tryInserts d c (tryItems s iB ie secDS))

/-- a loop that hands on the frame and `c` -/
def forLoop (f : Frame F → Nat → Int → Except Err (Frame F × Nat)) : Frame F → Nat → List Int → Except Err (Frame F × Nat)
  | d, c, [] => .ok (d, c)
  | d, c, i :: is =>
    match f d c i with
    | .error e => .error e
    | .ok (d, c) => forLoop f d c is

/-- `elemDataToOpenFAST` (270-363) when there are element data -/
def elemData (T : Trig F) (k : Case F) (nBld : Nat) (s : F) (rows : List (Row F)) (ds : Option (List (Row F))) (d : Frame F) (c : Nat) : Except Err (Frame F × Nat) :=
  let t := time T k
  let t := if d.rows < t.length then t.take d.rows else t
  forLoop (fun d c iB =>
    let bld := rows.filter fun r => r.blade = iB
    match azimuth T nBld iB with
    | .error e => .error e
    | .ok azi =>
      let psi := t.map fun t => t * omega T k - azi
      forLoop (element T k s psi iB bld (ds.map fun l => l.filter fun r => r.blade = iB)) d c (unique (bld.map Row.elem))) d c (unique (rows.map Row.blade))

/-- `toDataFrame` (371-375); the frames of the time, element and dynamic stall data, or that there are none.  The result is also the stored frame: columns are inserted in place. -/
def toDataFrame (T : Trig F) (k : Case F) (nBld : Nat) (s : F) (df : Option (Frame F)) (elem : Option (List (Row F))) (ds : Option (List (Row F))) :
    Except Err (Frame F) :=
  match df with
  | none => .error .type
  | some d =>
    match timeData T k nBld d with
    | .error e => .error e
    | .ok (d, c) =>
      match elem with
      | none => .error .unpack
      | some rows =>
        match elemData T k nBld s rows ds d c with
        | .error e => .error e
        | .ok (d, _) => .ok d

end

end Verif.Cactus
