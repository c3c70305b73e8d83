import Verif.Model.HtcQuery
import Verif.Model.WriteTest
import Verif.Py.Path
/-!
# The files that a HAWC2 file names

`/repo/weio/wetb/hawc2/htc_file.py:315-437`: `input_files`, `output_files`, `turbulence_files`,
`res_file_lst`.
Simplifications: numbers are whole; what is appended for the DTU controller (htc_file.py:355-362) is a function of the
section `dll`, and the path that `fix_path_case` gives (htc_file.py:369-379) a function of the name; the order and repetitions
of the input files, which go through a `set`, are kept; backslashes are not considered; an AttributeError is given as TypeError.
-/
namespace Verif.HtcFiles
open Verif.Py Verif.HtcEdit Verif.HtcQuery

/-- values of lines (htc_contents.py:29-35) -/
inductive Val where
  | text (s : Str)
  | num (n : Int)
deriving DecidableEq, Repr

/-- `x[i]` (htc_contents.py:55-56, 322-326): a section has no values -/
def valAt (x : Item Val) (i : Nat) : Except Err Val :=
  match x with
  | .line _ vals _ => match vals[i]? with
    | some v => .ok v
    | none => .error .index
  | _ => .error .key

/-- one after the other, up to the first exception -/
def seqE : List (Except Err α) → Except Err (List α)
  | [] => .ok []
  | .error e :: _ => .error e
  | .ok a :: r => match seqE r with
    | .error e => .error e
    | .ok l => .ok (a :: l)

/-- lists appended, up to the first exception -/
def catE (l : List (Except Err (List α))) : Except Err (List α) :=
  match seqE l with
  | .error e => .error e
  | .ok l => .ok l.flatten

/-- `section.get(k, [None, …])[i]` (htc_file.py:326-354) -/
def getAt (d : Kids Val) (k : Str) (i : Nat) : Except Err (Option Val) :=
  match look k d with
  | none => .ok none
  | some x => match valAt x i with
    | .error e => .error e
    | .ok v => .ok (some v)

/-- `section.k[0]` (htc_file.py:325, 328-329) -/
def needAt (d : Kids Val) (k : Str) : Except Err (Option Val) :=
  match look k d with
  | none => .error .key
  | some x => match valAt x 0 with
    | .error e => .error e
    | .ok v => .ok (some v)

/-- `if k in section:` with what is done with the subsection; nothing can be asked of a line -/
def inSec (d : Kids Val) (k : Str) (f : Kids Val → Except Err (List (Option Val))) : Except Err (List (Option Val)) :=
  match look k d with
  | none => .ok []
  | some x => match kidsOf x with
    | none => .error .type
    | some kids => f kids

/-- a main body (htc_file.py:324-326) -/
def bodyFiles (q : Str × Item Val) : Except Err (List (Option Val)) :=
  match kidsOf q.2 with
  | none => .error .type
  | some kids => catE
    [inSec kids "timoschenko_input".toList fun t => seqE [needAt t "filename".toList],
     seqE [getAt kids "external_bladedata_dll".toList 2]]

/-- the structure (htc_file.py:321-326) -/
def structFiles (d : Kids Val) : Except Err (List (Option Val)) :=
  inSec d "new_htc_structure".toList fun kids => catE ((kids.filter fun q => startsWith q.1 "main_body".toList).map bodyFiles)

/-- the aerodynamics (htc_file.py:327-335) -/
def aeroFiles (d : Kids Val) : Except Err (List (Option Val)) :=
  inSec d "aero".toList fun a => catE
    [seqE [needAt a "ae_filename".toList, needAt a "pc_filename".toList, getAt a "external_bladedata_dll".toList 2,
       getAt a "output_profile_coef_filename".toList 0],
     inSec a "dynstall_ateflap".toList fun s => seqE [getAt s "flap".toList 2],
     inSec a "bemwake_method".toList fun s => seqE [getAt s "a-ct-filename".toList 0]]

/-- one of the DLLs (htc_file.py:336-339): the file and the one for 64 bits -/
def dllFile (q : Str × Item Val) : Except Err (List (Option Val)) :=
  match kidsOf q.2 with
  | none => .ok []
  | some kids => if (look "filename".toList kids).isNone then .ok []
    else match needAt kids "filename".toList with
      | .error e => .error e
      | .ok (some (.text f)) =>
        .ok [some (.text f), some (.text ((WriteTest.splitext f).1 ++ "_64".toList ++ (WriteTest.splitext f).2))]
      | .ok _ => .error .type

/-- the DLLs (htc_file.py:336-339) -/
def dllFiles (d : Kids Val) : Except Err (List (Option Val)) :=
  inSec d "dll".toList fun kids => catE (kids.map dllFile)

/-- the wind (htc_file.py:340-343) -/
def windFiles (d : Kids Val) : Except Err (List (Option Val)) :=
  inSec d "wind".toList fun w => seqE
    [getAt w "user_defined_shear".toList 0, getAt w "user_defined_shear_turbulence".toList 0, getAt w "met_mast_wind".toList 0]

/-- the wakes (htc_file.py:344-347): the lines are looked for in the wind section -/
def wakeFiles (d : Kids Val) : Except Err (List (Option Val)) :=
  match look "wakes".toList d with
  | none => .ok []
  | some _ => match look "wind".toList d with
    | none => .error .key
    | some x => match kidsOf x with
      | none => .error .type
      | some w => seqE
        [getAt w "use_specific_deficit_file".toList 0, getAt w "write_ct_cq_file".toList 0, getAt w "write_final_deficits".toList 0]

/-- the water (htc_file.py:348-351) -/
def hydroFiles (d : Kids Val) : Except Err (List (Option Val)) :=
  inSec d "hydro".toList fun h => inSec h "water_properties".toList fun w => seqE
    [getAt w "water_kinematics_dll".toList 0, getAt w "water_kinematics_dll".toList 1]

/-- the soil (htc_file.py:352-354) -/
def soilFiles (d : Kids Val) : Except Err (List (Option Val)) :=
  inSec d "soil".toList fun h => inSec h "soil_element".toList fun w => seqE [getAt w "datafile".toList 0]

/-- the force DLL, if it is there (htc_file.py:364-367) -/
def forceFiles (d : Kids Val) : List (Option Val) :=
  match inSec d "force".toList fun f => inSec f "dll".toList fun l => seqE [needAt l "dll".toList] with
  | .error _ => []
  | .ok l => l

/-- what is given of the names (htc_file.py:369-380, 412): without None, empty texts and zeros; no other numbers -/
def paths (fix : Str → Str) : List (Option Val) → Except Err (List Str)
  | [] => .ok []
  | none :: r => paths fix r
  | some (.text []) :: r => paths fix r
  | some (.num 0) :: r => paths fix r
  | some (.num _) :: _ => .error .type
  | some (.text s) :: r => match paths fix r with
    | .error e => .error e
    | .ok l => .ok (fix s :: l)

/-- `input_files()` (htc_file.py:315-380) of a file with these names of HAWC2 files -/
def inputFiles (names : List Str) (extra : Option (Item Val) → List (Option Val)) (fix : Str → Str) (d : Kids Val) : Except Err (List Str) :=
  match catE [.ok (names.map fun n => some (.text n)), structFiles d, aeroFiles d, dllFiles d, windFiles d, wakeFiles d, hydroFiles d,
      soilFiles d, .ok (extra (look "dll".toList d)), .ok (forceFiles d)] with
  | .error e => .error e
  | .ok l => paths fix l

/-- `self.get(path)` and the first value of what is there (htc_file.py:396-398, 419, 421) -/
def pathFile (d : Kids Val) (path : Str) : Except Err (List (Option Val)) :=
  match getItem d path with
  | .error .key => .ok []
  | .error e => .error e
  | .ok x => match valAt x 0 with
    | .error e => .error e
    | .ok v => .ok [some v]

/-- the lines with output files (htc_file.py:385-395) -/
def outPaths : List Str :=
  (["simulation/logfile", "simulation/animation", "simulation/visualization", "new_htc_structure/beam_output_file_name",
    "new_htc_structure/body_output_file_name", "new_htc_structure/struct_inertia_output_file_name",
    "new_htc_structure/body_eigenanalysis_file_name", "new_htc_structure/constraint_output_file_name", "wind/turb_export/filename_u",
    "wind/turb_export/filename_v", "wind/turb_export/filename_w"] : List String).map String.toList

/-- the files of an eigenanalysis (htc_file.py:399-407) -/
def eigenFiles (d : Kids Val) (k : Str) : Except Err (List (Option Val)) :=
  match (look "new_htc_structure".toList d).bind kidsOf with
  | none => .ok []
  | some kids => match getAt kids k 0 with
    | .error e => .error e
    | .ok none => .ok []
    | .ok (some (.num _)) => .error .type
    | .ok (some (.text f)) => .ok [some (.text f), some (.text (pjoin (dirname f) "mode*.dat".toList))]

/-- the name of a file with an ending -/
def named (v : Val) (f : Str → List Str) : Except Err (List Str) :=
  match v with
  | .num _ => .error .type
  | .text s => .ok (f s)

/-- the result files of an output section (htc_file.py:429-436); without a format, the first letter of the default is compared -/
def resOf (x : Item Val) : Except Err (List Str) :=
  match kidsOf x with
  | none => .error .type
  | some kids => match getAt kids "data_format".toList 0 with
    | .error e => .error e
    | .ok fmt => match needAt kids "filename".toList with
      | .error e => .error e
      | .ok none => .ok []       -- unreachable
      | .ok (some v) =>
        if fmt = some (.text "gtsdf".toList) ∨ fmt = some (.text "gtsdf64".toList) then named v fun s => [s ++ ".hdf5".toList]
        else if fmt = some (.text "flex_int".toList) then named v fun s => [s ++ ".int".toList, pjoin (dirname s) "sensor".toList]
        else named v fun s => [s ++ ".sel".toList, s ++ ".dat".toList]

/-- what is done with `self[k]` for a key of the file (htc_file.py:411, 427-428) -/
def ofKey (d : Kids Val) (k : Str) (f : Item Val → Except Err (List Str)) : Except Err (List Str) :=
  match getItem d k with
  | .error e => .error e
  | .ok x => f x

/-- `res_file_lst()` (htc_file.py:424-437) -/
def resFiles (d : Kids Val) : Except Err (List Str) :=
  catE (d.map fun q => ofKey d q.1 fun x =>
    if startsWith (nameOf x) "output".toList ∧ ¬ startsWith (nameOf x) "output_at_time".toList then resOf x else .ok [])

/-- the files of the outputs at one time (htc_file.py:410-411) -/
def timeFiles (d : Kids Val) : Except Err (List Str) :=
  catE ((d.filter fun q => startsWith q.1 "output_at_time".toList).map fun q => ofKey d q.1 fun x =>
    match walk x ["filename".toList] with
    | .error e => .error e
    | .ok y => match valAt y 0 with
      | .error e => .error e
      | .ok v => named v fun s => [s ++ ".dat".toList])

/-- texts as values -/
def texts (l : Except Err (List Str)) : Except Err (List (Option Val)) :=
  match l with
  | .error e => .error e
  | .ok l => .ok (l.map fun s => some (.text s))

/-- `output_files()` (htc_file.py:382-412) -/
def outputFiles (d : Kids Val) : Except Err (List Str) :=
  match catE [catE (outPaths.map (pathFile d)), eigenFiles d "system_eigenanalysis".toList, eigenFiles d "structure_eigenanalysis_file_name".toList,
      texts (resFiles d), texts (timeFiles d)] with
  | .error e => .error e
  | .ok l => paths lower l

/-- the names of the three components (htc_file.py:419, 421-422) -/
def boxFiles (d : Kids Val) (sec : Str) : Except Err (List Val) :=
  match catE (["u".toList, "v".toList, "w".toList].map fun c => pathFile d ("wind.".toList ++ sec ++ ".filename_".toList ++ c)) with
  | .error e => .error e
  | .ok l => .ok (l.filterMap fun o => if o = some (.text []) ∨ o = some (.num 0) then none else o)

/-- `turbulence_files()` (htc_file.py:414-422); other formats leave `files` undefined -/
def turbFiles (d : Kids Val) : Except Err (List Val) :=
  match look "wind".toList d with
  | none => .ok []
  | some x => match kidsOf x with
    | none => .error .type
    | some w => match needAt w "turb_format".toList with
      | .error e => .error e
      | .ok v =>
        if v = some (.num 0) then .ok []
        else if v = some (.num 1) then boxFiles d "mann".toList
        else if v = some (.num 2) then boxFiles d "flex".toList
        else .error .name

end Verif.HtcFiles
