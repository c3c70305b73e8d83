import Verif.Model.HtcEdit
/-!
# Names of the simulation files in HAWC2 files

`/repo/weio/wetb/hawc2/htc_file.py:246-277`: `set_name`.
Simplifications: the paths of the files, made of the folder, the subfolder and the name (htc_file.py:261-262, 267-277), are
given as values; they are taken to have no blanks, so that each is one value; the name of the object itself (htc_file.py:264-265) is left out.
-/
namespace Verif.HtcName
open Verif.Py Verif.HtcEdit

/-- the paths that are set: log file, animation, visualization, results -/
structure Paths (V : Type) where
  log : V
  ani : V
  vis : V
  res : V

/-- `section.visualization[0] = f` (htc_file.py:273, htc_contents.py:326-330, 212-224) -/
def setFirst (f : V) (d : Kids V) : Kids V × Option Err :=
  match look "visualization".toList d with
  | some (.line n (_ :: ws) c) => (put "visualization".toList (.line n (f :: ws) c) d, none)
  | some (.line _ [] _) => (d, some .index)
  | some _ => (d, some .type)
  | none => (d, some .key)

/-- `if k in section: …` -/
def ifIn (k : Str) (f : Kids V → Kids V × Option Err) (d : Kids V) : Kids V × Option Err :=
  if (look k d).isSome then f d else (d, none)

/-- the simulation section (htc_file.py:267-273) -/
def setSim (p : Paths V) (d : Kids V) : Kids V × Option Err :=
  andThen (assign "logfile".toList [p.log] d) fun d =>
  andThen (ifIn "animation".toList (assign "animation".toList [p.ani]) d) fun d =>
  ifIn "visualization".toList (setFirst p.vis) d

/-- `'k' in self and 'logfile' in self.k` (htc_file.py:266, 274) -/
def hasLog (d : Kids V) (k : Str) : Bool :=
  match (look k d).bind kidsOf with
  | none => false
  | some kids => (look "logfile".toList kids).isSome

/-- `set_name(name, subfolder)` (htc_file.py:246-277) -/
def setName (d : Kids V) (p : Paths V) : Kids V × Option Err :=
  andThen (if hasLog d "simulation".toList then within d "simulation".toList (setSim p)
    else if hasLog d "test_structure".toList then within d "test_structure".toList (assign "logfile".toList [p.log])
    else (d, none)) fun d =>
  ifIn "output".toList (fun d => within d "output".toList (assign "filename".toList [p.res])) d

end Verif.HtcName
