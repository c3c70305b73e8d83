import Verif.Model.HtcHydro
/-!
# Mann turbulence in HAWC2 files

`/repo/weio/wetb/hawc2/htc_extensions.py:47-87`: `add_mann_turbulence`.  Simplifications: the file names are given, and they and the box
dimensions are lists of values as they are after the split at blanks (htc_contents.py:78-79); texts of numbers are values.
-/
namespace Verif.HtcMann
open Verif.Py Verif.HtcEdit Verif.HtcAdd Verif.HtcHydro

/-- the arguments (htc_extensions.py:47-51), as values of lines -/
structure Box (V : Type) where
  /-- the turbulence format, 1 -/
  one : V
  /-- `[L, ae23, Gamma, seed, int(high_frq_compensation)]` -/
  params : List V
  /-- the three file names -/
  fileU : List V
  fileV : List V
  fileW : List V
  /-- the numbers of grid points and the spacings -/
  dimU : List V
  dimV : List V
  dimW : List V
  dontScale : Bool
  std : Option (List V)

/-- the comment of the parameters (htc_extensions.py:59) -/
def paramComment : Str := "L, alfaeps, gamma, seed, highfrq compensation".toList

/-- the parameters of the turbulence (htc_extensions.py:55-59): values of the line that is there, or a new line -/
def setParams (params : List V) (d : Kids V) : Kids V :=
  if (look "create_turb_parameters".toList d).isSome then setAttr d "create_turb_parameters".toList params
  else d ++ [(Htc.newKey (d.map Prod.fst) "create_turb_parameters".toList, .line "create_turb_parameters".toList params paramComment)]

/-- a value that is set, or a line that is deleted if it is there (htc_extensions.py:74-87) -/
def setOrDel (k : Str) (v : Option (List V)) (d : Kids V) : Kids V :=
  match v with
  | some v => setAttr d k v
  | none => delAttr d k

/-- the section `mann` (htc_extensions.py:55-87) -/
def setMann (b : Box V) (d : Kids V) : Kids V :=
  let d := setParams b.params d
  let d := setAttr d "filename_u".toList b.fileU
  let d := setAttr d "filename_v".toList b.fileV
  let d := setAttr d "filename_w".toList b.fileW
  let d := setAttr d "box_dim_u".toList b.dimU
  let d := setAttr d "box_dim_v".toList b.dimV
  let d := setAttr d "box_dim_w".toList b.dimW
  let d := setOrDel "dont_scale".toList (if b.dontScale then some [b.one] else none) d
  setOrDel "std_scaling".toList b.std d

/-- `add_mann_turbulence(…)` (htc_extensions.py:47-87) -/
def addMann (isNum : Str → Bool) (d : Kids V) (b : Box V) : Kids V × Option Err :=
  ensure isNum d "wind".toList fun w =>
    ensure isNum (setAttr w "turb_format".toList [b.one]) "mann".toList fun m => (setMann b m, none)

end Verif.HtcMann
