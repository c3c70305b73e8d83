import Verif.Model.NetCdf
import Verif.Py.Dec
/-!
# What the tables of a NetCDF file says
-/
namespace Verif.NetCdf
open Verif.Py

/-- the table has a value in row `i` and column `j` -/
def cell {V : Type} (t : Table V) (i j : Nat) : Option V := (t.rows[i]?).bind fun r => r[j]?

end Verif.NetCdf
