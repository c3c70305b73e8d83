import Verif.Model.Cactus
import Verif.Lemmas.Hawc2Sel
import Verif.Lemmas.Hs2
import Verif.Lemmas.WaveKin
import Mathlib.Data.List.Forall2
import Mathlib.Tactic.Ring
import Mathlib.Tactic.LinearCombination
/-!
# What a CACTUS case says
-/
namespace Verif.Cactus
open Verif.Py

/-- the value of a text: a number, several numbers, or the text without the spaces at its end -/
def Value {F : Type} (flt : Str → Option F) (s : Str) (v : GVal F) : Prop :=
  (∃ w x, words s = [w] ∧ flt w = some x ∧ v = .num x) ∨
  (∃ xs, List.Forall₂ (fun w x => flt w = some x) (words s) xs ∧ xs.length ≠ 1 ∧ v = .vec xs) ∨
  ((∃ w ∈ words s, flt w = none) ∧ v = .text (rstrip s))

/-- a comment: nothing, or `!` and anything -/
def Comment (s : Str) : Prop := s = [] ∨ ∃ r, s = '!' :: r

/-- what a line of the geometry file says: a name and a value, or nothing -/
inductive GeomSays {F : Type} (flt : Str → Option F) : Str → Option (Str × GVal F) → Prop
  | entry (key val com : Str) (v : GVal F) (h1 : '!' ∉ key ∧ ':' ∉ key) (h2 : '!' ∉ val ∧ ':' ∉ val) (h3 : strip key ≠ []) (h4 : Comment com) (hv : Value flt val v) :
      GeomSays flt (key ++ ':' :: (val ++ com)) (some (lower (strip key), v))
  | blank (s com : Str) (h1 : strip s = []) (h2 : '!' ∉ s) (h4 : Comment com) : GeomSays flt (s ++ com) none

/-- the value said last for a name -/
def lastSaid {F : Type} (es : List (Option (Str × GVal F))) (k : Str) : Option (GVal F) :=
  ((es.filterMap id).reverse.find? fun x => decide (x.1 = k)).map Prod.snd

/-- a line with a text but no colon -/
def NoColon (l : Str) : Prop := ∃ s com, l = s ++ com ∧ strip s ≠ [] ∧ '!' ∉ s ∧ ':' ∉ s ∧ Comment com

/-- a column with these values in its rows -/
def column {F : Type} (n : Nat) (f : Nat → F) : List F := (List.range n).map f

/-- the frame has the column -/
def Has {F : Type} (d : Frame F) (name : String) (f : Nat → F) : Prop := (name.toList, column d.rows f) ∈ d.cols

/-- the label of a blade -/
def bladeLabel (a : String) (i : Nat) (b : String) : Str := a.toList ++ Nat.toDigits 10 (i + 1) ++ b.toList

/-- the coefficients of the rotor or of a blade, row by row -/
structure Coef (F : Type) where
  fx : Nat → F
  fy : Nat → F
  fz : Nat → F
  cq : Nat → F

/-- the time data have the coefficients of the rotor and of `n` blades -/
def HasData {F : Type} (d : Frame F) (n : Nat) (cp : Nat → F) (rotor : Coef F) (blade : Nat → Coef F) : Prop :=
  (d.cols.map Prod.fst).Nodup ∧ Has d "Power Coeff. (-)" cp ∧ Has d "Torque Coeff. (-)" rotor.cq ∧ Has d "Fx Coeff. (-)" rotor.fx ∧ Has d "Fy Coeff. (-)" rotor.fy ∧
  Has d "Fz Coeff. (-)" rotor.fz ∧ ∀ i, i < n → (bladeLabel "Blade" i " Fx Coeff. (-)", column d.rows (blade i).fx) ∈ d.cols ∧
    (bladeLabel "Blade" i " Fy Coeff. (-)", column d.rows (blade i).fy) ∈ d.cols ∧ (bladeLabel "Blade" i " Fz Coeff. (-)", column d.rows (blade i).fz) ∈ d.cols ∧
    (bladeLabel "Blade" i " Torque Coeff. (-)", column d.rows (blade i).cq) ∈ d.cols

/-- rotor speed in rad/s, radius in m, wind speed, reference force, torque, power -/
structure Quant (F : Type) where
  omega : F
  radius : F
  wind : F
  force : F
  torque : F
  power : F

/-- the quantities of a case: lengths of the geometry file are feet, the density is given in slug per cubic foot -/
def IsQuant {F : Type} [Field F] (T : Trig F) (k : Case F) (q : Quant F) : Prop :=
  q.omega = k.rpm * 2 * T.pi / 60 ∧ q.radius = (if k.hasGeom then k.refr / (328084 / 100000) else 1) ∧ q.wind = q.omega * q.radius / k.ut ∧
  q.force = 5 / 10 * (k.rho * (12 / 10) / (2328 / 1000000)) * (k.refar * k.refr ^ 2 / (328084 / 100000) ^ 2) * q.wind ^ 2 ∧ q.torque = q.force * q.radius ∧ q.power = q.force * q.wind

/-- the second row is repeated in the first -/
def skip0 {F : Type} (f : Nat → F) : Nat → F := fun i => if i = 0 then f 1 else f i

/-- the columns of the rotor; `t` is the time of a row -/
def rotorTable {F : Type} [Field F] (T : Trig F) (q : Quant F) (t cp : Nat → F) (r : Coef F) : List (Str × (Nat → F)) :=
  [("Time_[s]".toList, t), ("Azimuth_[deg]".toList, fun i => T.mod (t i * q.omega * 180 / T.pi)), ("HWindSpeedX_[m/s]".toList, fun _ => q.wind), ("RtAeroCp_[-]".toList, cp),
   ("RtAeroCq_[-]".toList, r.cq), ("ZAeroFxg_[N]".toList, fun i => r.fx i * q.force), ("ZAeroFyg_[N]".toList, fun i => -(r.fz i * q.force)),
   ("ZAeroFzg_[N]".toList, fun i => r.fy i * q.force), ("ZAeroMzg_[N-m]".toList, fun i => r.cq i * q.torque), ("RtAeroFxh_[N]".toList, fun i => r.fy i * q.force),
   ("RtAeroFyh_[N]".toList, fun i => T.cos (t i * q.omega) * (r.fx i * q.force) - T.sin (t i * q.omega) * (r.fz i * q.force)),
   ("RtAeroFzh_[N]".toList, fun i => -(T.cos (t i * q.omega) * (r.fz i * q.force) + T.sin (t i * q.omega) * (r.fx i * q.force))),
   ("RtAeroMxh_[N-m]".toList, fun i => r.cq i * q.torque), ("RtAeroPwr_[W]".toList, skip0 fun i => cp i * q.power)]

/-- the columns of blade `j`, at the angle `psi` in a row -/
def bladeTable {F : Type} [Field F] (T : Trig F) (q : Quant F) (psi : Nat → F) (j : Nat) (b : Coef F) : List (Str × (Nat → F)) :=
  [(bladeLabel "Y" j "AeroFxb_[N]", fun i => -(T.cos (psi i) * (b.fz i * q.force) + T.sin (psi i) * (b.fx i * q.force))),
   (bladeLabel "Y" j "AeroFyb_[N]", fun i => T.cos (psi i) * (b.fx i * q.force) - T.sin (psi i) * (b.fz i * q.force)),
   (bladeLabel "Y" j "AeroFzb_[N]", fun i => -(b.fy i * q.force)), (bladeLabel "Y" j "AeroMxb_[N-m]", fun i => b.cq i * q.torque),
   (bladeLabel "Y" j "AeroPwr_[W]", skip0 fun i => b.cq i * q.torque * q.omega), (bladeLabel "Z" j "AeroFxg_[N]", fun i => b.fx i * q.force),
   (bladeLabel "Z" j "AeroFyg_[N]", fun i => -(b.fz i * q.force)), (bladeLabel "Z" j "AeroFzg_[N]", fun i => b.fy i * q.force),
   (bladeLabel "Z" j "AeroMzg_[N-m]", fun i => b.cq i * q.torque)]

/-- all new columns: the rotor, the rotor speed, the blades, equally spaced, and the wind -/
def newTable {F : Type} [Field F] (T : Trig F) (k : Case F) (q : Quant F) (n : Nat) (cp : Nat → F) (rotor : Coef F) (blade : Nat → Coef F) : List (Str × (Nat → F)) :=
  let t := fun i : Nat => (i : F) * (2 * T.pi / q.omega / (k.nti : F))
  rotorTable T q t cp rotor ++ [("RotSpeed_[rpm]".toList, fun _ => k.rpm)] ++
    ((List.range n).flatMap fun j : Nat => bladeTable T q (fun i => t i * q.omega - 2 * T.pi / (n : F) * (j : F)) j (blade j)) ++ [("Wind1VelX_[m/s]".toList, fun _ => q.wind)]

/-- the columns of a frame with these values -/
def columns {F : Type} (m : Nat) (l : List (Str × (Nat → F))) : List (Str × List F) := l.map fun x => (x.1, column m x.2)

/-- a label of a node: three digits, or more, for its number -/
def nodeLabel (b e : Nat) (s : String) : Str :=
  "AB".toList ++ Nat.toDigits 10 b ++ "N".toList ++ (List.replicate (3 - (Nat.toDigits 10 e).length) '0' ++ Nat.toDigits 10 e) ++ s.toList

/-- the columns of a node; `v` has the values of the element data by label and row, `sg` is the sign of the angle of attack, `psi` the angle of the blade -/
def nodeTable {F : Type} [Field F] (T : Trig F) (q : Quant F) (sg : F) (psi : Nat → F) (b e : Nat) (v : String → Nat → F) : List (Str × (Nat → F)) :=
  [(nodeLabel b e "Alpha_[deg]", fun i => sg * v "AOA25 (deg)" i), (nodeLabel b e "Alpha50_[deg]", fun i => sg * v "AOA50 (deg)" i),
   (nodeLabel b e "Alpha75_[deg]", fun i => sg * v "AOA75 (deg)" i), (nodeLabel b e "Cl_[-]", fun i => sg * v "CL (-)" i), (nodeLabel b e "Cd_[-]", fun i => v "CD (-)" i),
   (nodeLabel b e "Cm_[-]", fun i => sg * v "CM25 (-)" i), (nodeLabel b e "Cn_[-]", fun i => sg * v "CN (-)" i), (nodeLabel b e "Ct_[-]", fun i => sg * v "CT (-)" i),
   (nodeLabel b e "Ct2_[-]", fun i => sg * (v "CD (-)" i * T.cos (v "AOA25 (deg)" i * T.pi / 180) - v "CL (-)" i * T.sin (v "AOA25 (deg)" i * T.pi / 180))),
   (nodeLabel b e "Cxg_[-]", fun i => v "Fx (-)" i), (nodeLabel b e "Cyg_[-]", fun i => -v "Fz (-)" i), (nodeLabel b e "Czg_[-]", fun i => v "Fy (-)" i),
   (nodeLabel b e "ClC_[-]", fun i => sg * v "CLCirc (-)" i), (nodeLabel b e "Re_[-]", fun i => v "Re (-)" i / 1000000),
   (nodeLabel b e "Gam_[m^2/s]", fun i => sg * v "GB (?)" i * q.wind * q.radius), (nodeLabel b e "Vrel_[m/s]", fun i => v "Ur (-)" i * q.wind),
   (nodeLabel b e "Vindx_[m/s]", fun i => -(T.cos (psi i) * v "IndW (-)" i + T.sin (psi i) * v "IndU (-)" i) * q.wind),
   (nodeLabel b e "Vindy_[m/s]", fun i => (T.cos (psi i) * v "IndU (-)" i - T.sin (psi i) * v "IndW (-)" i) * q.wind)]

/-- the labels of the element data -/
def elemLabels : List String := ["AOA25 (deg)", "AOA50 (deg)", "AOA75 (deg)", "CL (-)", "CD (-)", "CM25 (-)", "CN (-)", "CT (-)", "Fx (-)", "Fy (-)", "Fz (-)", "CLCirc (-)", "Re (-)",
  "GB (?)", "Ur (-)", "IndU (-)", "IndV (-)", "IndW (-)"]

/-- the rows of an element -/
def section_ {F : Type} (rows : List (Row F)) (b e : Nat) : List (Row F) := rows.filter fun r => decide (r.blade = (b : Int) ∧ r.elem = (e : Int))

/-- the values of the element data: `v b e` has those of element `e` of blade `b` -/
def HasVals {F : Type} (rows : List (Row F)) (v : Nat → Nat → String → Nat → F) : Prop :=
  ∀ b e (i : Nat) r, (section_ rows b e)[i]? = some r → ∀ l ∈ elemLabels, r.val l.toList = some (v b e l i)

/-- blades are numbered from one to `n`, and elements are not negative -/
def Numbered {F : Type} (rows : List (Row F)) (n : Nat) : Prop := ∀ r ∈ rows, 1 ≤ r.blade ∧ r.blade ≤ (n : Int) ∧ 0 ≤ r.elem

/-- the elements with `m` rows, sorted by blade and number -/
def IsNodes {F : Type} (rows : List (Row F)) (m : Nat) (nodes : List (Nat × Nat)) : Prop :=
  nodes.Pairwise (fun x y => x.1 < y.1 ∨ (x.1 = y.1 ∧ x.2 < y.2)) ∧ ∀ b e, (b, e) ∈ nodes ↔ (section_ rows b e).length = m

/-- the columns of all nodes -/
def allNodes {F : Type} [Field F] (T : Trig F) (k : Case F) (q : Quant F) (n : Nat) (sg : F) (v : Nat → Nat → String → Nat → F) (nodes : List (Nat × Nat)) : List (Str × (Nat → F)) :=
  nodes.flatMap fun x => nodeTable T q sg (fun i : Nat => (i : F) * (2 * T.pi / q.omega / (k.nti : F)) * q.omega - 2 * T.pi / (n : F) * ((x.1 - 1 : Nat) : F)) x.1 x.2 (v x.1 x.2)

/-- a value of a frame -/
def Cell {F : Type} (d : Frame F) (name : Str) (i : Nat) (x : F) : Prop := ∃ col, (name, col) ∈ d.cols ∧ col[i]? = some x

/-- suffixes of the labels of a node -/
def suffixes : List String := ["Alpha_[deg]", "Alpha50_[deg]", "Alpha75_[deg]", "Cl_[-]", "Cd_[-]", "Cm_[-]", "Cn_[-]", "Ct_[-]", "Ct2_[-]", "Cxg_[-]", "Cyg_[-]", "Czg_[-]", "ClC_[-]",
  "Re_[-]", "Gam_[m^2/s]", "Vrel_[m/s]", "Vindx_[m/s]", "Vindy_[m/s]"]

end Verif.Cactus
