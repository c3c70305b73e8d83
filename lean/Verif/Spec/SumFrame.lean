import Verif.Model.SumFrame
import Verif.Props.Summary
import Verif.Lemmas.Str
import Verif.Lemmas.FastLine
/-!
# What the table of a SubDyn summary file says
-/
namespace Verif.Summary
open Verif.Py

/-- the label of a column: `GuyanMode1x_[m]` and so on -/
def label (pre : String) (s k : Nat) : Str :=
  pre.toList ++ (Nat.toDigits 10 (s + 1) ++ (if k = 0 then 'x' else if k = 1 then 'y' else 'z') :: "_[m]".toList)

/-- the displacement in direction `k` of mode `s`, from the displacements of a node: zero where there is none -/
def number (d : List (List (Option ℚ))) (k s : Nat) : ℚ :=
  match d[k]? with
  | some r => match r[s]? with
    | some (some q) => q
    | _ => 0
  | none => 0

/-- what a table says of the modes whose labels begin with `pre`: there are two columns for each mode and direction
in which some node moves, with the displacements and the displaced positions of the nodes, and none for the others -/
def Says (df : List Column) (sh : Shapes) (ns : Nat) (pre : String) : Prop :=
  ∀ s < ns, ∀ k < 3,
    ((∃ d ∈ sh.disp, number d k s ≠ 0) →
      df.lookup (label (pre ++ "Disp") s k) = some (sh.disp.map fun d => some (number d k s)) ∧
      ∃ col, df.lookup (label (pre ++ "Mode") s k) = some col ∧ col.length = sh.inodes.length ∧
        ∀ (ii : Nat) p d, sh.pos[ii]? = some (some p) → sh.disp[ii]? = some d → col[ii]? = some (some (coord k p + number d k s))) ∧
    ((∀ d ∈ sh.disp, number d k s = 0) → df.lookup (label (pre ++ "Disp") s k) = none ∧ df.lookup (label (pre ++ "Mode") s k) = none)

end Verif.Summary
