import Verif.Py.Str
/-!
# Classes of the user folder

`/repo/weio/__init__.py`, `userFileClasses` (127-177).  Importing a module is a parameter: what `inspect.getmembers` gives, or that the
import raises.  `os.path.exists` and `glob` are parameters too.  The name of the module (150) is not kept.
-/
namespace Verif.UserFmt
open Verif.Py

/-- a class: its `__name__`, and the file of the module it was defined in -/
structure Cls where
  name : Str
  definedIn : Str
deriving DecidableEq, Repr

/-- `SourceFileLoader(mod_name,f).load_module()` (154): it raises, or a module with these members, sorted by name; `none` is a member that is no class (163-164) -/
inductive Load where
  | raises
  | members (l : List (Str × Option Cls))
deriving DecidableEq, Repr

/-- a file of the folder (146) -/
structure UFile where
  path : Str
  load : Load
deriving DecidableEq, Repr

/-- the errors: a module that cannot be imported (156), or without a class (173) -/
inductive Msg where
  | importing (path : Str)
  | noClass (path : Str)
deriving DecidableEq, Repr

/-- result: the classes, their paths, the errors (177) -/
structure Res where
  classes : List Cls
  paths : List Str
  errors : List Msg
deriving DecidableEq, Repr

/-- the test of the name (165-166) -/
def isFile (c : Cls) : Bool :=
  let n := lower c.name
  decide (n ≠ "file".toList) && (find "file".toList n).isSome && (find "error".toList n).isNone

/-- the loop over the members (163-172) -/
def pick : List (Str × Option Cls) → Option Cls
  | [] => none
  | (_, none) :: r => pick r
  | (_, some c) :: r => if isFile c then some c else pick r

/-- the loop over the files (148-176) -/
def loop (ignore : Bool) (acc : Res) : List UFile → Except Msg Res
  | [] => .ok acc
  | f :: fs =>
    if f.path = "__init__.py".toList then loop ignore acc fs
    else
      match f.load with
      | .raises => if ignore then loop ignore { acc with errors := acc.errors ++ [.importing f.path] } fs else .error (.importing f.path)
      | .members l =>
        match pick l with
        | some c => loop ignore { acc with classes := acc.classes ++ [c], paths := acc.paths ++ [f.path] } fs
        | none => if ignore then loop ignore { acc with errors := acc.errors ++ [.noClass f.path] } fs else .error (.noClass f.path)

/-- `userFileClasses` (127-177); `files`: the files `glob` finds, their paths begin with the folder; `none`: the folder does not exist (139) -/
def userFileClasses (ignore : Bool) (files : Option (List UFile)) : Except Msg Res :=
  match files with
  | none => .ok ⟨[], [], []⟩
  | some fs => loop ignore ⟨[], [], []⟩ fs

end Verif.UserFmt
