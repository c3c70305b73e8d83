import Verif.Model.HtcName
import Verif.Lemmas.HtcEdit
/-!
# What the names in HAWC2 files says
-/
namespace Verif.HtcName
open Verif.Py Verif.HtcEdit

/-- the log file of the simulation -/
def logPath : List Str := ["simulation".toList, "logfile".toList]
/-- the animation -/
def aniPath : List Str := ["simulation".toList, "animation".toList]
/-- the visualization -/
def visPath : List Str := ["simulation".toList, "visualization".toList]
/-- the results -/
def resPath : List Str := ["output".toList, "filename".toList]

end Verif.HtcName
