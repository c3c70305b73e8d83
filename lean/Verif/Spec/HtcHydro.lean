import Verif.Model.HtcHydro
import Verif.Lemmas.HtcAdd
import Verif.Lemmas.HtcName
/-!
# What water properties of HAWC2 files says
-/
namespace Verif.HtcHydro
open Verif.Py Verif.HtcEdit Verif.HtcAdd

/-- there is a section of this key with this dictionary, or nothing of this key -/
def SecOrNone {V : Type} (d : Kids V) (k : Str) (kids : Kids V) : Prop := HasSec d k kids ∨ (k ∉ d.map Prod.fst ∧ kids = [])

/-- the path of a water property -/
def water (k : String) : List Str := ["hydro".toList, "water_properties".toList, k.toList]

end Verif.HtcHydro
