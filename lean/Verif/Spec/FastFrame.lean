import Verif.Model.FastFrame
import Verif.Lemmas.FlexPro
import Verif.Lemmas.FastReadEnd
import Mathlib.Algebra.BigOperators.Intervals
import Mathlib.Tactic
/-!
# What data frames of a FAST input file says
-/
namespace Verif.FastFrame
open Verif.Py Verif.FastLine Verif.FastRead

/-- a table: an element of the file that is neither a value nor a list of files -/
def IsTable (d : Item F) : Prop := d.tabType ≠ .notTab ∧ d.tabType ≠ .fil

instance (d : Item F) : Decidable (IsTable d) := inferInstanceAs (Decidable (_ ∧ _))

/-- the tables of a file, in the order of the file -/
def tables (data : List (Item F)) : List (Item F) := data.filter (fun d => decide (IsTable d))

/-- the unit of a column as it is shown: `(m)` is shown as `[m]` -/
inductive UnitShown : Str → Str → Prop
  | nil : UnitShown [] []
  | left {u v} : UnitShown u v → UnitShown ('(' :: u) ('[' :: v)
  | right {u v} : UnitShown u v → UnitShown (')' :: u) (']' :: v)
  | other {c u v} : c ≠ '(' → c ≠ ')' → UnitShown u v → UnitShown (c :: u) (c :: v)

/-- the label of a column of this name and unit -/
def ColShown (n u l : Str) : Prop := ∃ v, UnitShown u v ∧ l = n ++ '_' :: v

/-- the labels of the columns of a table: its names, with its units if it has units -/
def LabelsOf (d : Item F) (ls : List Str) : Prop :=
  ∃ ns, d.names = some ns ∧
    match d.units with
    | none => ls = ns
    | some us => us.length = ns.length ∧ List.Forall₂ (fun (nu : Str × Str) l => ColShown nu.1 nu.2 l) (ns.zip us) ls

/-- the column of this label, the only one of it, holds these cells -/
def HasCol (f : Frame F) (c : Str) (vs : List (DCell F)) : Prop :=
  ∃ j : Nat, f.cols[j]? = some (ColName.name c) ∧ (∀ j' : Nat, f.cols[j']? = some (ColName.name c) → j' = j) ∧ f.rows.map (·[j]?) = vs.map some

/-- the data frame of a table has the labels and the cells of the table -/
inductive Shows (d : Item F) : Frame F → Prop
  | num (rows : List (List F)) (ls : List Str) : d.value = .num rows → LabelsOf d ls →
      Shows d ⟨ls.map .name, rows.map (·.map .num)⟩
  | mix (rows : List (List (Cell F))) (ls : List Str) (cells : List (List (DCell F))) : d.value = .mix rows → LabelsOf d ls →
      List.Forall₂ (List.Forall₂ (fun c x => (∀ s, c = .txt s → x = .txt s) ∧ (∀ y, c = .num y → x = .num y))) rows cells →
      Shows d ⟨ls.map .name, cells⟩

/-- a table which has a label for each of its columns, and is no table of damping coefficients -/
def TableOk (d : Item F) : Prop :=
  d.label ≠ "DampingCoeffs".toList ∧ d.tabType ≠ .beamdyn ∧
  ∃ ls, LabelsOf d ls ∧ ((∃ rows, d.value = .num rows ∧ ∀ r ∈ rows, r.length = ls.length) ∨
    (∃ rows, d.value = .mix rows ∧ ∀ r ∈ rows, r.length = ls.length))

/-- the name of the coefficient of the power `k` of a mode, e.g. `TwFAM1Sh(2)` -/
def coefKey (m : Str) (k : Nat) : Str := m ++ ['(', Nat.digitChar k, ')']

/-- the file gives this number under this name -/
def Gives [Field F] (data : List (Item F)) (key : Str) (c : F) : Prop :=
  lookup data key = some (.plain (.scalar (.flt c))) ∨ ∃ n : Int, lookup data key = some (.plain (.scalar (.int n))) ∧ c = n

/-- a mode of these coefficients -/
def poly [Field F] (c : Nat → F) (x : F) : F := ∑ k ∈ Finset.Icc 2 6, c k * x ^ k

/-- a table of numbers with these labels and rows -/
def NumTable (d : Item F) (ls : List Str) (rows : List (List F)) : Prop :=
  d.label ≠ "DampingCoeffs".toList ∧ d.tabType ≠ .beamdyn ∧ LabelsOf d ls ∧ d.value = .num rows ∧ ∀ r ∈ rows, r.length = ls.length

/-- a section of a BeamDyn blade -/
structure Section (F : Type) where
  span : F
  K : Fin 6 → Fin 6 → F
  M : Fin 6 → Fin 6 → F

/-- the 36 terms of a matrix, row after row -/
def flat (K : Fin 6 → Fin 6 → F) : List F := (List.finRange 6).flatMap (fun i => (List.finRange 6).map (K i))

/-- the label of a term, e.g. `K11` -/
def termName (c : Char) (i j : Fin 6) : Str := [c, Nat.digitChar (i + 1), Nat.digitChar (j + 1)]

/-- the names of the values and tables of a file -/
def labelsOf (data : List (Item F)) : List Str := (data.filter (fun d => !d.isComment)).map Item.label

/-- the label stands at this place and at no other -/
def OneCol (ls : List Str) (c : Str) (j : Nat) : Prop := ls[j]? = some c ∧ ∀ j' : Nat, ls[j']? = some c → j' = j

/-- an angle in degrees, in radians -/
def rad [Field F] (T : Trig F) (x : F) : F := x * T.pi / 180

/-- the index of the last angle below `a` -/
def IsLast [LT F] (alpha : List F) (a : F) (i : Nat) : Prop :=
  (∃ x, alpha[i]? = some x ∧ x < a) ∧ ∀ j x, i < j → alpha[j]? = some x → ¬ x < a

/-- what a table of polars says: the columns of angle, lift and drag, the values that belong to it and the
rows before the angles `alpha2`, `alpha1` and `alpha0` -/
structure PolarText (F : Type) where
  off : Str
  ls : List Str
  rows : List (List F)
  ja : Nat
  jl : Nat
  jd : Nat
  cd0 : F
  slope : F
  a0 : F
  before : Option (Nat × Nat × Nat)

/-- the angles of the rows -/
def PolarText.alpha [Field F] (T : Trig F) (p : PolarText F) : List F := p.rows.map (fun r => rad T (r.getD p.ja 0))

/-- the normal force coefficient of a row -/
def PolarText.cn [Field F] (T : Trig F) (p : PolarText F) (r : List F) : F :=
  r.getD p.jl 0 * T.cos (rad T (r.getD p.ja 0)) + r.getD p.jd 0 * T.sin (rad T (r.getD p.ja 0))

/-- the normal force coefficient of a row without the drag at zero lift -/
def PolarText.cn1 [Field F] (T : Trig F) (p : PolarText F) (r : List F) : F :=
  r.getD p.jl 0 * T.cos (rad T (r.getD p.ja 0)) + (r.getD p.jd 0 - p.cd0) * T.sin (rad T (r.getD p.ja 0))

/-- the linear normal force coefficient of a row, between -20 and 30 degrees -/
def PolarText.pot [Field F] [LinearOrder F] (T : Trig F) (p : PolarText F) (r : List F) : DCell F :=
  if rad T (-20) ≤ rad T (r.getD p.ja 0) ∧ rad T (r.getD p.ja 0) ≤ rad T 30 then
    .num (p.slope * (rad T (r.getD p.ja 0) - rad T p.a0))
  else .nan

/-- the data frame of a table of polars -/
def PolarText.frame [Field F] [LinearOrder F] (T : Trig F) (p : PolarText F) : Frame F :=
  match p.before with
  | none => ⟨(p.ls ++ ["Cn_[-]".toList, "Cn_Cd0off_[-]".toList, "Cn_pot_[-]".toList]).map .name,
      p.rows.map (fun r => r.map .num ++ [.num (p.cn T r), .num (p.cn1 T r), p.pot T r])⟩
  | some (i2, i1, i0) => ⟨(p.ls ++ ["Cn_[-]".toList, "Cn_Cd0off_[-]".toList, "Cn_pot_[-]".toList, "Cn_012_[-]".toList]).map .name,
      p.rows.mapIdx (fun i r => r.map .num ++ [.num (p.cn T r), .num (p.cn1 T r), p.pot T r,
        if i = i2 ∨ i = i2 + 1 ∨ i = i1 ∨ i = i1 + 1 ∨ i = i0 ∨ i = i0 + 1 then .num (p.cn T r) else .nan])⟩

/-- the table and the values of the file are as said -/
def PolarText.Ok [Field F] [LinearOrder F] (T : Trig F) (data : List (Item F)) (p : PolarText F) (d : Item F) : Prop :=
  NumTable d p.ls p.rows ∧ OneCol p.ls "Alpha_[deg]".toList p.ja ∧ OneCol p.ls "Cl_[-]".toList p.jl ∧ OneCol p.ls "Cd_[-]".toList p.jd ∧
  (∀ c ∈ ["Cn_[-]".toList, "Cn_Cd0off_[-]".toList, "Cn_pot_[-]".toList, "Cn_012_[-]".toList], c ∉ p.ls) ∧
  Gives data ("Cd0".toList ++ p.off) p.cd0 ∧ Gives data ("C_nalpha".toList ++ p.off) p.slope ∧ Gives data ("alpha0".toList ++ p.off) p.a0 ∧
  match p.before with
  | none => lookup data ("alpha2".toList ++ p.off) = none ∨ lookup data ("alpha1".toList ++ p.off) = none ∨
      ∃ a2 a1, Gives data ("alpha2".toList ++ p.off) a2 ∧ Gives data ("alpha1".toList ++ p.off) a1 ∧
        ∃ a ∈ [a2, a1, p.a0], ∀ x ∈ p.alpha T, ¬ x < rad T a
  | some (i2, i1, i0) => ∃ a2 a1, Gives data ("alpha2".toList ++ p.off) a2 ∧ Gives data ("alpha1".toList ++ p.off) a1 ∧
      IsLast (p.alpha T) (rad T a2) i2 ∧ IsLast (p.alpha T) (rad T a1) i1 ∧ IsLast (p.alpha T) (rad T p.a0) i0

/-- the distance from the leading edge to the aerodynamic centre, in chords, of node `i` of `len`: from 1/2 to
1/4 over the first 15% of the nodes, then 1/4 -/
def acSpec [Field F] (len i : Nat) : F :=
  if i < 15 * len / 100 then 1 / 2 - i / (4 * ((15 * len / 100 - 1 : Nat) : F)) else 1 / 4

end Verif.FastFrame
