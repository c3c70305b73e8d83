import Verif.Model.HtcAdd
import Verif.Lemmas.HtcEdit
/-!
# What adding sections to HAWC2 files says
-/
namespace Verif.HtcAdd
open Verif.Py Verif.HtcEdit

/-- members that a section does not have yet -/
structure Fresh {V : Type} (kids : Kids V) (members : List (Str × List V)) : Prop where
  nodup : (members.map Prod.fst).Nodup
  new : ∀ k ∈ members.map Prod.fst, k ∉ kids.map Prod.fst
  plain : ∀ k ∈ members.map Prod.fst, ¬ ['_', '_'] <:+: k

/-- the contents of a section with lines for the members behind them -/
def withLines {V : Type} (kids : Kids V) (members : List (Str × List V)) : Kids V :=
  kids ++ members.map fun m => (m.1, .line m.1 m.2 [])

end Verif.HtcAdd
