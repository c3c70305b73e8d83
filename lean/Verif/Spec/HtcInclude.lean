import Verif.Model.HtcInclude
import Verif.Py.Dec
import Verif.Lemmas.Str
/-!
# What files that continue in other files says
-/
namespace Verif.HtcInclude
open Verif.Py

/-- the line says that the text continues in the file `name` -/
structure Says (l name : Str) : Prop where
  line : ∃ kw blank tail, l = blank ++ kw ++ ' ' :: name ++ ';' :: tail ∧ (∀ c ∈ blank, isWs c = true) ∧
    lower kw = "continue_in_file".toList
  word : name ≠ [] ∧ (∀ c ∈ name, isWs c = false) ∧ ';' ∉ name

end Verif.HtcInclude
