import Verif.Model.HtcCompare
/-!
# What comparison of HAWC2 files says
-/
namespace Verif.HtcCompare
open Verif.Py

/-- what is found at a path of names: nothing, a section (`some none`), or a line with its values -/
def at? (a : Item V) : List Str → Option (Option (List V))
  | [] => match a with
    | .line v _ => some (some v)
    | .sec _ _ => some none
    | .out _ _ _ => some none
  | k :: p => match a with
    | .line _ _ => none
    | .sec kids _ => match kids.lookup k with
      | some b => at? b p
      | none => none
    | .out kids _ _ => match kids.lookup k with
      | some b => at? b p
      | none => none

/-- the names in each section are different (they are the keys of a dictionary) -/
inductive Keyed : Item V → Prop
  | line (v : List V) (t : List Str) : Keyed (.line v t)
  | sec (kids : List (Str × Item V)) (t : List Str) : (kids.map Prod.fst).Nodup → (∀ x ∈ kids, Keyed x.2) → Keyed (.sec kids t)
  | out (kids : List (Str × Item V)) (ss : List (Sensor V)) (t : List Str) : (kids.map Prod.fst).Nodup → (∀ x ∈ kids, Keyed x.2) → Keyed (.out kids ss t)

/-- no output sections, and the names in each section are different -/
inductive Plain : Item V → Prop
  | line (v : List V) (t : List Str) : Plain (.line v t)
  | sec (kids : List (Str × Item V)) (t : List Str) : (kids.map Prod.fst).Nodup → (∀ x ∈ kids, Plain x.2) → Plain (.sec kids t)

end Verif.HtcCompare
