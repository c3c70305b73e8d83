import Verif.Spec.FastHand
/-!
# Specification: files of keys and comments whose labels contain any character

The format checks of the reader, stated on what the lines say.
-/
namespace Verif.FastRead
open Verif.Py Verif.FastDict Verif.FastLine

/-- a character expected in a label -/
def LabelChar (c : Char) : Prop := c.isAlphanum = true ∨ c ∈ ['"', '\'', '_', '(', ')', '-']

/-- a word that is neither a number, nor a logical, nor a remark `!…:` -/
def AnyLabel (N : Num) (lab : Str) : Prop :=
  lab ≠ [] ∧ (∀ c ∈ lab, isWs c = false ∧ c ≠ ',') ∧ N.parse lab = none ∧
  lower lab ∉ ["true".toList, "t".toList, "false".toList, "f".toList] ∧ ¬ Tag lab

/-- an item with a label that contains an unexpected character -/
def Odd {F : Type} (d : Seen F) : Prop := d.comment = false ∧ ∃ c ∈ d.label, ¬ LabelChar c

instance {F : Type} (d : Seen F) : Decidable (Odd d) := by unfold Odd LabelChar; infer_instance

/-- a line `value label description` with any label -/
def LooseKey (N : Num) (b : List (Seen N.F)) (l lab : Str) (v : Val N.F) : Prop :=
  ∃ t ws mid rest, words l = ws ++ (mid ++ lab :: rest) ∧ TextOK t ws ∧ Means N t v ∧ Skip N mid ∧
    (mid = [] ∨ ',' ∉ l) ∧ NotEnd l ∧ NoSection l ∧ AnyLabel N lab ∧
    (KpSeen b → IntText t → ∀ w, mid.head? = some w → ¬ IntText w)

/-- `Loose N b lines ds`: after the items `b`, the lines, all comments or keys, say `ds` -/
inductive Loose (N : Num) : List (Seen N.F) → List Str → List (Seen N.F) → Prop
  | nil (b) : Loose N b [] []
  | comment (b line lines ds) : IsCommentLine line ∨ IsBlank line → NoSection line →
      Loose N (b ++ [.comm N.F line]) lines ds → Loose N b (line :: lines) (.comm N.F line :: ds)
  | lone (b line lines ds) : LoneLine N line → Plain (.str line : Val N.F) →
      Loose N (b ++ [.comm N.F line]) lines ds → Loose N b (line :: lines) (.comm N.F line :: ds)
  | key (b line lines ds lab val) : LooseKey N b line lab val → Plain val → (∀ k ∈ reserved, lower lab ≠ k.toList) →
      Loose N (b ++ [⟨lab, .plain (.scalar val), false, none, none⟩]) lines ds →
      Loose N b (line :: lines) (⟨lab, .plain (.scalar val), false, none, none⟩ :: ds)

/-- what makes `n` lines no input file: an odd label after the third item, more than 35% of comments, or
more than 10% of odd labels -/
def Refused {F : Type} (n : Nat) (ds : List (Seen F)) : Prop :=
  (∃ d ∈ ds.drop 3, Odd d) ∨ 35 * n < 100 * ds.countP (·.comment) ∨ n < 10 * ds.countP (fun d => decide (Odd d))

end Verif.FastRead
