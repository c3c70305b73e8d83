import Verif.Model.HtcFiles
import Verif.Lemmas.HtcQuery
import Verif.Lemmas.Path
/-!
# What the files that a HAWC2 file names says
-/
namespace Verif.HtcFiles
open Verif.Py Verif.HtcEdit Verif.HtcQuery

/-- the lines that name input files, and the position of the name -/
def inputLines : List (List Str × Nat) :=
  ([(["aero", "ae_filename"], 0), (["aero", "pc_filename"], 0), (["aero", "external_bladedata_dll"], 2),
    (["aero", "output_profile_coef_filename"], 0), (["aero", "dynstall_ateflap", "flap"], 2), (["aero", "bemwake_method", "a-ct-filename"], 0),
    (["wind", "user_defined_shear"], 0), (["wind", "user_defined_shear_turbulence"], 0), (["wind", "met_mast_wind"], 0),
    (["hydro", "water_properties", "water_kinematics_dll"], 0), (["hydro", "water_properties", "water_kinematics_dll"], 1),
    (["soil", "soil_element", "datafile"], 0), (["force", "dll", "dll"], 0)] : List (List String × Nat)).map
    fun q => (q.1.map String.toList, q.2)

/-- the lines that name output files with their first value -/
def outputLines : List (List Str) :=
  ([["simulation", "logfile"], ["simulation", "animation"], ["simulation", "visualization"], ["new_htc_structure", "beam_output_file_name"],
    ["new_htc_structure", "body_output_file_name"], ["new_htc_structure", "struct_inertia_output_file_name"],
    ["new_htc_structure", "body_eigenanalysis_file_name"], ["new_htc_structure", "constraint_output_file_name"],
    ["new_htc_structure", "system_eigenanalysis"], ["new_htc_structure", "structure_eigenanalysis_file_name"],
    ["wind", "turb_export", "filename_u"], ["wind", "turb_export", "filename_v"], ["wind", "turb_export", "filename_w"]] : List (List String)).map
    fun p => p.map String.toList

/-- the line names a file at a position -/
def Names (d : Kids Val) (path : List Str) (i : Nat) (f : Str) : Prop :=
  f ≠ [] ∧ ∃ vals, valuesAt path d = some vals ∧ vals[i]? = some (.text f)

/-- the result files of an output in a format -/
def resultFiles (fmt : Option Str) (r : Str) : List Str :=
  if fmt = some "gtsdf".toList ∨ fmt = some "gtsdf64".toList then [r ++ ".hdf5".toList]
  else if fmt = some "flex_int".toList then [r ++ ".int".toList, pjoin (dirname r) "sensor".toList]
  else [r ++ ".sel".toList, r ++ ".dat".toList]

/-- an output section with a result file and perhaps a format -/
def Output (x : Item Val) (fmt : Option Str) (r : Str) : Prop :=
  ∃ kids ws, kidsOf x = some kids ∧ valuesAt ["filename".toList] kids = some (.text r :: ws) ∧
    match fmt with
    | none => "data_format".toList ∉ kids.map Prod.fst
    | some t => ∃ vs, valuesAt ["data_format".toList] kids = some (.text t :: vs)

/-- the key of a component -/
def component (c : Char) : Str := "filename_".toList ++ [c]

/-- the names of the three components in a section of the wind that are there -/
def boxNames (wind : Kids Val) (sec : Str) : List Val :=
  (['u', 'v', 'w'].filterMap fun c => (valuesAt [sec, component c] wind).bind List.head?).filter fun v => v ≠ .text [] ∧ v ≠ .num 0

/-- the lines of the components have values, or are not there -/
def BoxLines (wind : Kids Val) (sec : Str) : Prop :=
  ∀ c ∈ ['u', 'v', 'w'], (∃ v vs, valuesAt [sec, component c] wind = some (v :: vs)) ∨ Ends wind [sec, component c]

end Verif.HtcFiles
