import Verif.Model.HtcBody
import Verif.Lemmas.Str
import Verif.Py.Dec
import Mathlib.Data.List.Forall2
/-!
# What the bodies of a HAWC2 file says
-/
namespace Verif.HtcBody
open Verif.Py

/-- the lines of a section whose key begins with `sec`, in order -/
def secLines (s : Sect) : Sect := s.filter fun p => startsWith p.1 "sec".toList

/-- a section as a file should have it: no key twice, the number of lines is the declared one, five numbers on each -/
structure GoodC2 (s : Sect) (rows : List (List ℚ)) : Prop where
  keys : (s.map Prod.fst).Nodup
  nsec : ∃ r, s.lookup "nsec".toList = some (.num rows.length :: r)
  lines : (secLines s).map Prod.snd = rows.map fun r => r.map Val.num
  five : ∀ r ∈ rows, r.length = 5

/-- rows of five numbers whose first one is whole -/
def Rows (val : List (List ℚ)) : Prop := ∀ r ∈ val, r.length = 5 ∧ ∃ n : Int, r.head? = some (n : ℚ)

end Verif.HtcBody
