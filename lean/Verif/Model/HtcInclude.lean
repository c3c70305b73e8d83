import Verif.Py.Str
/-!
# Files that continue in other files — `/repo/weio/wetb/hawc2/htc_file.py:186-218`

`readlines` of a HAWC2 file: lines `continue_in_file` are replaced by the lines of the file they
name.  Parameters: `readfilelines` and `os.path.isfile`, as functions of the path.
Simplifications: `os.path.join` for POSIX paths; the recursion of the code is bounded by `fuel`,
the depth of the files, as by the recursion limit of Python.
-/
namespace Verif.HtcInclude
open Verif.Py

inductive Err where
  | notFound       -- IOError of `unix_path` or `open`
  | value          -- ValueError: True is not in list
  | recursion      -- RecursionError
deriving DecidableEq, Repr

/-- the surroundings of a file: `readfilelines` (htc_file.py:186-194), `os.path.isfile` of the
absolute path, `self.filename`, its directory, and `self.modelpath` (`none` for `'unknown'`) -/
structure Env where
  lines : Str → Option (List Str)
  isfile : Str → Bool
  filename : Str
  dir : Str
  modelpath : Option Str

/-- `os.path.join(a, b)` (htc_file.py:207, 209, 211) -/
def join (a b : Str) : Str :=
  if b.head? = some '/' then b else if a = [] ∨ a.getLast? = some '/' then a ++ b else a ++ '/' :: b

/-- `"../" * i` (htc_file.py:207, 209) -/
def ups : Nat → Str
  | 0 => []
  | i + 1 => "../".toList ++ ups i

/-- `l.lower().lstrip().startswith('continue_in_file')` (htc_file.py:202) -/
def isInclude (l : Str) : Bool := startsWith (lstrip (lower l)) "continue_in_file".toList

/-- the name of the file (htc_file.py:203) -/
def incName (l : Str) : Str := lower (strip (((lstrip l).takeWhile (· ≠ ';')).drop 16))

/-- `line.lstrip().lower().startswith('exit')` (htc_file.py:213) -/
def isExit (l : Str) : Bool := startsWith (lower (lstrip l)) "exit".toList

/-- `os.path.join(p, "../" * i, filename)` (htc_file.py:207, 209) -/
def level (E : Env) (i : Nat) (name : Str) : Str := join (join E.dir (ups i)) name

/-- is the file there, `i` directories up? (htc_file.py:207) -/
def isThere (E : Env) (name : Str) (i : Nat) : Bool := E.isfile (level E i (replaceChar '\\' ['/'] name))

/-- where the file is looked for (htc_file.py:205-211) -/
def locate (E : Env) (name : Str) : Except Err Str :=
  match E.modelpath with
  | some m => .ok (join m name)
  | none =>
    match (List.range 4).find? (isThere E name) with
    | some i => .ok (level E i name)
    | none => .error .value

/-- the loop over the lines (htc_file.py:201-217), `rec` reads the file that is named: the lines and
the files added to `htc_inputfiles` -/
def expand (E : Env) (rec : Str → Except Err (List Str × List Str)) : List Str → Except Err (List Str × List Str)
  | [] => .ok ([], [])
  | l :: ls =>
    if isInclude l then
      match locate E (incName l) with
      | .error e => .error e
      | .ok p =>
        match rec p with
        | .error e => .error e
        | .ok (inc, fs) =>
          match expand E rec ls with
          | .error e => .error e
          | .ok (r, fs') => .ok (inc.takeWhile (fun x => !isExit x) ++ r, fs ++ fs')
    else
      match expand E rec ls with
      | .error e => .error e
      | .ok (r, fs') => .ok (l :: r, fs')

/-- `readlines(filename)` (htc_file.py:196-218) -/
def readlines (E : Env) : Nat → Str → Except Err (List Str × List Str)
  | 0, _ => .error .recursion
  | n + 1, name =>
    match E.lines name with
    | none => .error .notFound
    | some ls =>
      match expand E (readlines E n) ls with
      | .error e => .error e
      | .ok (r, fs) => .ok (r, if name ≠ E.filename then name :: fs else fs)

end Verif.HtcInclude
