import Verif.Model.HtcMann
import Verif.Lemmas.HtcHydro
/-!
# What Mann turbulence in HAWC2 files says
-/
namespace Verif.HtcMann
open Verif.Py Verif.HtcEdit Verif.HtcAdd Verif.HtcHydro

/-- the lines of the section `mann` and their values; no values for lines that are not there -/
def mannLines {V : Type} (b : Box V) : List (Str × Option (List V)) :=
  [("create_turb_parameters".toList, some b.params), ("filename_u".toList, some b.fileU), ("filename_v".toList, some b.fileV),
    ("filename_w".toList, some b.fileW), ("box_dim_u".toList, some b.dimU), ("box_dim_v".toList, some b.dimV), ("box_dim_w".toList, some b.dimW),
    ("dont_scale".toList, if b.dontScale then some [b.one] else none), ("std_scaling".toList, b.std)]

/-- the path of the turbulence format -/
def formatPath : List Str := ["wind".toList, "turb_format".toList]

/-- the path of a line of the section `mann` -/
def mannPath (k : Str) : List Str := ["wind".toList, "mann".toList, k]

end Verif.HtcMann
