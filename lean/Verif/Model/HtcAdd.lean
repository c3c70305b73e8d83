import Verif.Model.HtcEdit
/-!
# Adding sections to HAWC2 files

`/repo/weio/wetb/hawc2/htc_contents.py:129-161, 212-224`: `add_section` and `delete`.
Simplifications: names have no dots or slashes; members are lists of values, given in the order in which they are set; a time of an
output at one time is a number if the parameter says so; a section is identified by its key in `delete`.
-/
namespace Verif.HtcAdd
open Verif.Py Verif.HtcEdit

/-- the section that is added (htc_contents.py:145-150, 193-199, 357-362, 413-418): for outputs, a new one in any case -/
def newSection (isNum : Str → Bool) (name : Str) (given : Option (Item V)) : Except Err (Item V) :=
  if name = "output".toList then .ok (.out name [] [] [] [])
  else if startsWith name "output_at_time".toList then
    match words name with
    | [n, _, t] => if isNum t then .ok (.out n [] [] [] []) else .error .value
    | _ => .error .value
  else .ok (given.getD (.sec (strip name) [] [] []))

/-- `for k, v in …: section[k] = v` (htc_contents.py:152-154) -/
def setMembers (x : Item V) (members : List (Str × List V)) : Item V :=
  match x with
  | .line n v c => .line n v c      -- unreachable: only sections are added
  | .sec n bc ec kids => .sec n bc ec (members.foldl (fun d m => setItem d m.1 m.2) kids)
  | .out n bc ec kids ss => .out n bc ec (members.foldl (fun d m => setItem d m.1 m.2) kids) ss

/-- `add_section(section_name, members, section, allow_duplicate)` (htc_contents.py:139-155): the dictionary afterwards and what is returned;
for a section as first argument, `name` is its name and `given` the section -/
def addSection (isNum : Str → Bool) (d : Kids V) (name : Str) (members : List (Str × List V)) (given : Option (Item V)) (dup : Bool) :
    Except Err (Kids V × Item V) :=
  match if dup then none else look name d with
  | some x => .ok (d, x)
  | none => match newSection isNum name given with
    | .error e => .error e
    | .ok s => .ok (d ++ [(Htc.newKey (d.map Prod.fst) (nameOf s), setMembers s members)], setMembers s members)

/-- `section.delete()` for the section of a key (htc_contents.py:157-160) -/
def delete (d : Kids V) (k : Str) : Kids V := drop k d

end Verif.HtcAdd
