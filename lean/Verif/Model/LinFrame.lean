import Verif.Model.Lin
import Verif.Model.Hawc2
/-!
# Data frames of linearization files — `/repo/weio/fast_linearization_file.py`

`short_descr` (158-296), `xdescr` … `udescr` (298-320) and `_toDataFrame` (322-352).

Simplifications
* `s.replace(a, b)` is `Hawc2.replace`, `re.sub(r'\([^)]*\)', '', s)` is `noParens`;
* a data frame is its row labels (`none` when there are none), its column labels and its rows; pandas
  refuses labels that do not agree with the shape (ValueError); an array of no rows or no columns is
  not treated apart.
-/
namespace Verif.Lin
open Verif.Py Verif.FastLine

/-- `s = s.replace(a, b)` for each pair in order -/
def replaceAll (s : Str) (l : List (String × String)) : Str :=
  l.foldl (fun s p => Hawc2.replace p.1.toList p.2.toList s) s

/-- the replacements of units (162-191) -/
def unitPairs : List (String × String) :=
  [("(m/s)", "_[m/s]"), ("(kW)", "_[kW]"), ("(deg)", "_[deg]"), ("(N)", "_[N]"), ("(kN-m)", "_[kNm]"),
   ("(N-m)", "_[Nm]"), ("(kN)", "_[kN]"), ("(rpm)", "_[rpm]"), ("(rad)", "_[rad]"), ("(rad/s)", "_[rad/s]"),
   ("(rad/s^2)", "_[rad/s^2]"), ("(m/s^2)", "_[m/s^2]"), ("(deg/s^2)", "_[deg/s^2]"), ("(m)", "_[m]"),
   (", m/s/s", "_[m/s^2]"), (", m/s^2", "_[m/s^2]"), (", m/s", "_[m/s]"), (", m", "_[m]"),
   (", rad/s/s", "_[rad/s^2]"), (", rad/s^2", "_[rad/s^2]"), (", rad/s", "_[rad/s]"), (", rad", "_[rad]"),
   (", -", "_[-]"), (", Nm/m", "_[Nm/m]"), (", Nm", "_[Nm]"), (", N/m", "_[N/m]"), (", N", "_[N]"),
   ("(1)", "1"), ("(2)", "2"), ("(3)", "3")]

/-- the replacements after the parentheses are removed (193-198) -/
def headPairs : List (String × String) :=
  [("ED ", ""), ("BD_", "BD_B"), ("IfW ", ""), ("Extended input: ", ""), ("1st tower ", "qt1"),
   ("2nd tower ", "qt2")]

/-- the replacements after the derivatives (206-293) -/
def tailPairs : List (String × String) :=
  [("Variable speed generator DOF ", "psi_rot"), ("fore-aft bending mode DOF ", "FA"),
   ("side-to-side bending mode DOF", "SS"), ("bending-mode DOF of blade ", ""),
   (" rotational-flexibility DOF, rad", "-ROT"), ("rotational displacement in ", "rot"), ("Drivetrain", "DT"),
   ("translational displacement in ", "trans"), ("finite element node ", "N"),
   ("-component position of node ", "posN"), ("-component inflow on tower node", "TwrN"),
   ("-component inflow on blade 1, node", "Bld1N"), ("-component inflow on blade 2, node", "Bld2N"),
   ("-component inflow on blade 3, node", "Bld3N"), ("-component inflow velocity at node", "N"),
   ("X translation displacement, node", "TxN"), ("Y translation displacement, node", "TyN"),
   ("Z translation displacement, node", "TzN"), ("X translation velocity, node", "TVxN"),
   ("Y translation velocity, node", "TVyN"), ("Z translation velocity, node", "TVzN"),
   ("X translation acceleration, node", "TAxN"), ("Y translation acceleration, node", "TAyN"),
   ("Z translation acceleration, node", "TAzN"), ("X orientation angle, node", "RxN"),
   ("Y orientation angle, node", "RyN"), ("Z orientation angle, node", "RzN"),
   ("X rotation velocity, node", "RVxN"), ("Y rotation velocity, node", "RVyN"),
   ("Z rotation velocity, node", "RVzN"), ("X rotation acceleration, node", "RAxN"),
   ("Y rotation acceleration, node", "RAyN"), ("Z rotation acceleration, node", "RAzN"),
   ("X force, node", "FxN"), ("Y force, node", "FyN"), ("Z force, node", "FzN"), ("X moment, node", "MxN"),
   ("Y moment, node", "MyN"), ("Z moment, node", "MzN"), ("FX", "Fx"), ("FY", "Fy"), ("FZ", "Fz"),
   ("MX", "Mx"), ("MY", "My"), ("MZ", "Mz"), ("FKX", "FKx"), ("FKY", "FKy"), ("FKZ", "FKz"), ("MKX", "MKx"),
   ("MKY", "MKy"), ("MKZ", "MKz"), ("Nodes motion", ""), ("cosine", "cos"), ("sine", "sin"),
   ("collective", "coll."), ("Blade", "Bld"), ("rotZ", "TORS-R"), ("transX", "FLAP-D"), ("transY", "EDGE-D"),
   ("rotX", "EDGE-R"), ("rotY", "FLAP-R"), ("flapwise", "FLAP"), ("edgewise", "EDGE"),
   ("horizontal surge translation DOF", "Surge"), ("horizontal sway translation DOF", "Sway"),
   ("vertical heave translation DOF", "Heave"), ("roll tilt rotation DOF", "Roll"),
   ("pitch tilt rotation DOF", "Pitch"), ("yaw rotation DOF", "Yaw"),
   ("vertical power-law shear exponent", "alpha"), ("horizontal wind speed ", "WS"),
   ("propagation direction", "WD"), (" pitch command", "pitch"), ("HSS_", "HSS"), ("Bld", "B"),
   ("tower", "Twr"), ("Tower", "Twr"), ("Nacelle", "Nac"), ("Platform", "Ptfm"), ("SrvD", "SvD"),
   ("Generator torque", "Qgen"), ("coll. blade-pitch command", "PitchColl"),
   ("wave elevation at platform ref point", "WaveElevRefPoint"), ("1)", "1"), ("2)", "2"), ("3)", "3"),
   (",", ""), (" ", "")]

/-- `re.sub(r'\([^)]*\)', '', s)` (192): from each opening parenthesis to the next closing one, if there
is one.  `n` bounds the number of steps. -/
def noParensN : Nat → Str → Str
  | 0, s => s
  | _ + 1, [] => []
  | n + 1, c :: s =>
    if c = '(' ∧ ')' ∈ s then noParensN n ((s.dropWhile (· ≠ ')')).drop 1)
    else c :: noParensN n s

/-- `re.sub(r'\([^)]*\)', '', s)` (192) -/
def noParens (s : Str) : Str := noParensN (s.length + 1) s

/-- `s.count(a)`: occurrences from the left that do not overlap (199) -/
def countN (a : Str) : Nat → Str → Nat
  | 0, _ => 0
  | _ + 1, [] => 0
  | n + 1, c :: s =>
    if a.isPrefixOf (c :: s) then 1 + countN a n ((c :: s).drop a.length) else countN a n s

/-- the derivatives (199-205) -/
def derivative (s : Str) : Str :=
  let key := "First time derivative of ".toList
  let nd := countN key (s.length + 1) s
  let s := Hawc2.replace key [] s
  if nd = 1 then "d_".toList ++ strip s
  else if nd = 2 then "dd_".toList ++ strip s
  else s

/-- `shortname` (160-295) -/
def shortname (s : Str) : Str :=
  strip (replaceAll (derivative (replaceAll (noParens (replaceAll (strip s) unitPairs)) headPairs)) tailPairs)

/-- `xdescr()` … (298-320): the short names of a list of points, none if it was not read -/
def descr {F : Type} (l : Option (List (OpRow F))) : List Str :=
  match l with
  | none => []
  | some rows => rows.map (fun r => shortname r.descr)

/-- a data frame -/
structure Frame (F : Type) where
  index : Option (List Str)
  columns : List Str
  rows : List (List F)
deriving DecidableEq

/-- `pd.DataFrame(data, index, columns)` -/
def mkFrame {F : Type} (m : List (List F)) (index columns : List Str) : Except LErr (Frame F) :=
  if m.length = index.length ∧ ∀ r ∈ m, r.length = columns.length then .ok ⟨some index, columns, m⟩
  else .error .value

/-- `pd.DataFrame(np.asarray(v).reshape((1,-1)), columns)` -/
def rowFrame {F : Type} (v : List F) (columns : List Str) : Except LErr (Frame F) :=
  if v.length = columns.length then .ok ⟨none, columns, [v]⟩ else .error .value

/-- one entry of the dictionary: nothing if the key was not read -/
def entry {F : Type} {α : Type} (name : String) (v : Option α) (f : α → Except LErr (Frame F)) :
    Except LErr (List (Str × Frame F)) :=
  match v with
  | none => .ok []
  | some a =>
    match f a with
    | .error e => .error e
    | .ok fr => .ok [(name.toList, fr)]

/-- entries one after the other -/
def inOrder {F : Type} : List (Except LErr (List (Str × Frame F))) → Except LErr (List (Str × Frame F))
  | [] => .ok []
  | .error e :: _ => .error e
  | .ok a :: l =>
    match inOrder l with
    | .error e => .error e
    | .ok b => .ok (a ++ b)

/-- `_toDataFrame` (322-352) -/
def toDataFrame {F : Type} (d : Data F) : Except LErr (List (Str × Frame F)) :=
  let x := descr d.x
  let xdot := descr d.xdot
  let y := descr d.y
  let u := descr d.u
  let values := fun (l : List (OpRow F)) => l.map (·.value)
  inOrder
    [entry "A" d.A (fun m => mkFrame m x x), entry "B" d.B (fun m => mkFrame m x u),
     entry "C" d.C (fun m => mkFrame m y x), entry "D" d.D (fun m => mkFrame m y u),
     entry "x" d.x (fun l => rowFrame (values l) x), entry "xdot" d.xdot (fun l => rowFrame (values l) xdot),
     entry "u" d.u (fun l => rowFrame (values l) u), entry "y" d.y (fun l => rowFrame (values l) y),
     entry "M" d.M (fun m => mkFrame m (d.eddof.getD []) (d.eddof.getD [])),
     entry "dUdu" d.dUdu (fun m => mkFrame m u u), entry "dUdy" d.dUdy (fun m => mkFrame m u y)]

end Verif.Lin
