import Verif.Model.HtcAdd
/-!
# Water properties of HAWC2 files

`/repo/weio/wetb/hawc2/htc_extensions.py:124-129`: `add_hydro`.  Simplification: `add_section` of a line with the name of a section is an error.
-/
namespace Verif.HtcHydro
open Verif.Py Verif.HtcEdit Verif.HtcAdd

/-- `self.add_section(name)` as something to change (htc_contents.py:139-155): the section that is there or a new one; its dictionary is changed by `f` -/
def ensure (isNum : Str → Bool) (d : Kids V) (name : Str) (f : Kids V → Kids V × Option Err) : Kids V × Option Err :=
  match addSection isNum d name [] none false with
  | .error e => (d, some e)
  | .ok r => within r.1 name f

/-- the four assignments (htc_extensions.py:126-129) -/
def setWater (mud mwl g rho : V) (p : Kids V) : Kids V × Option Err :=
  andThen (assign "mudlevel".toList [mud] p) fun p => andThen (assign "mwl".toList [mwl] p) fun p =>
    andThen (assign "gravity".toList [g] p) (assign "rho".toList [rho])

/-- `add_hydro(mudlevel, mwl, gravity, rho)` (htc_extensions.py:124-129) -/
def addHydro (isNum : Str → Bool) (d : Kids V) (mud mwl g rho : V) : Kids V × Option Err :=
  ensure isNum d "hydro".toList fun h => ensure isNum h "water_properties".toList (setWater mud mwl g rho)

end Verif.HtcHydro
