import Verif.Model.Htc
/-!
# Changing HAWC2 files

`/repo/weio/wetb/hawc2/htc_contents.py:43-99, 129-137, 212-224, 261-292, 295-305, 353-362` and
`/repo/weio/wetb/hawc2/htc_file.py:279-290`: attributes and items of sections, deletion, copies,
sections found by a line in them, and `set_time`.
Simplifications: values are lists of any type `V`, texts already split and converted; attributes with
double underscores of `object` itself are left out; a section called `values` is not considered.
-/
namespace Verif.HtcEdit
open Verif.Py

/-- exceptions -/
inductive Err where
  | key      -- KeyError: no such contents
  | index    -- IndexError: no such value
  | type     -- TypeError: a line has no contents
  | value    -- ValueError of `get_section`, `get_element`
  | name     -- NameError: `name` is not defined (htc_contents.py:278)
deriving DecidableEq, Repr

/-- contents: a line, a section, an output section with its sensors (htc_contents.py:193-203, 295-305, 357-362) -/
inductive Item (V : Type) where
  | line (name : Str) (vals : List V) (cmt : Str)
  | sec (name bc ec : Str) (kids : List (Str × Item V))
  | out (name bc ec : Str) (kids : List (Str × Item V)) (sensors : List (List V))

/-- the dictionary of a section -/
abbrev Kids (V : Type) := List (Str × Item V)

/-- `self.contents[k]` -/
def look (k : Str) : List (Str × α) → Option α
  | [] => none
  | (a, b) :: r => if a = k then some b else look k r

/-- `self.contents[k] = v` -/
def put (k : Str) (v : α) : List (Str × α) → List (Str × α)
  | [] => [(k, v)]
  | (a, b) :: r => if a = k then (a, v) :: r else (a, b) :: put k v r

/-- `del self.contents[k]` -/
def drop (k : Str) (d : List (Str × α)) : List (Str × α) := d.filter fun p => p.1 ≠ k

/-- the names in `dir(self)` of a section: attributes and methods (htc_contents.py:37-41, 58-292, 357-386) -/
def attrs : List Str :=
  (["lines", "contents", "name_", "parent", "get", "keys", "_add_contents", "add_section", "delete", "location", "compare",
    "end_comments", "begin_comments", "section_name", "add_line", "from_lines", "line_from_line", "get_subsection_by_name",
    "get_section", "get_element", "copy", "sensors", "add_sensor", "_add_sensor"] : List String).map String.toList

/-- the key that an attribute is read from (htc_contents.py:66-68) -/
def readKey (k : Str) : Str := if k.drop (k.length - 3) = "__1".toList then k.take (k.length - 3) else k

/-- `section.k` for a name that is no attribute of the object (htc_contents.py:58-69) -/
def getAttr (d : Kids V) (k : Str) : Option (Item V) := look (readKey k) d

/-- a line with these values, or the values of the line that is there (htc_contents.py:82-88): the
assignment to `values` of a section -/
def setLine (d : Kids V) (k : Str) (v : List V) : Kids V :=
  match look k d with
  | some (.line n _ c) => put k (.line n v c) d
  | some _ => d
  | none => put k (.line (Htc.cut2 k) v []) d

/-- `section.k = v` (htc_contents.py:71-88): the values of the line that is there are set; a section
that is there gets a line `values`; otherwise a line is added -/
def setAttr (d : Kids V) (k : Str) (v : List V) : Kids V :=
  if k ∈ attrs then d
  else match look k d with
    | some (.line n _ c) => put k (.line n v c) d
    | some (.sec n bc ec kids) => put k (.sec n bc ec (setLine kids "values".toList v)) d
    | some (.out n bc ec kids ss) => put k (.out n bc ec (setLine kids "values".toList v) ss) d
    | none => put k (.line (Htc.cut2 k) v []) d

/-- `section[k] = v` for values (htc_contents.py:212-224, 129-137): `add_line` -/
def setItem (d : Kids V) (k : Str) (v : List V) : Kids V :=
  d ++ [(Htc.newKey (d.map Prod.fst) (Htc.cut2 k), .line (Htc.cut2 k) v [])]

/-- `del section.k` (htc_contents.py:90-93): nothing happens if there is no such line -/
def delAttr (d : Kids V) (k : Str) : Kids V := if (look k d).isSome then drop k d else d

mutual
/-- `copy` (htc_contents.py:288-292, 353-354): the method of output sections is that of sections -/
def copy : Item V → Item V
  | .line n v c => .line (Htc.cut2 n) v (Htc.stripBlank c)
  | .sec n bc ec kids => .sec (strip n) (Htc.stripBlank bc) (Htc.stripBlank ec) (copyKids kids)
  | .out n bc ec kids _ => .sec (strip n) (Htc.stripBlank bc) (Htc.stripBlank ec) (copyKids kids)
/-- the contents of the copy (htc_contents.py:290-291); the keys are different -/
def copyKids : List (Str × Item V) → List (Str × Item V)
  | [] => []
  | (k, x) :: r => (k, copy x) :: copyKids r
end

/-- the dictionary of an item, if it has one -/
def kidsOf : Item V → Option (Kids V)
  | .line _ _ _ => none
  | .sec _ _ _ d => some d
  | .out _ _ _ d _ => some d

/-- the name -/
def nameOf : Item V → Str
  | .line n _ _ => n
  | .sec n _ _ _ => n
  | .out n _ _ _ _ => n

/-- `__iter__` (htc_contents.py:95-99) -/
def items (d : Kids V) : List (Item V) :=
  (d.map Prod.snd).filter (fun x => nameOf x = "main_body".toList) ++ (d.map Prod.snd).filter fun x => nameOf x ≠ "main_body".toList

/-- `field in s and s[field][0] == name` (htc_contents.py:265) -/
def hasField [DecidableEq V] (field : Str) (v : V) (x : Item V) : Except Err Bool :=
  match kidsOf x with
  | none => .ok false
  | some d => match look field d with
    | none => .ok false
    | some (.line _ (w :: _) _) => .ok (decide (w = v))
    | some (.line _ [] _) => .error .index
    | some _ => .error .key

/-- a list comprehension with a condition that may raise -/
def filterE (p : α → Except Err Bool) : List α → Except Err (List α)
  | [] => .ok []
  | x :: r => match p x with
    | .error e => .error e
    | .ok b => match filterE p r with
      | .error e => .error e
      | .ok l => .ok (if b then x :: l else l)

/-- the single member of a list, or ValueError (htc_contents.py:266-271, 281-286) -/
def single : List α → Except Err α
  | [x] => .ok x
  | _ => .error .value

/-- `get_section(name, field)` (htc_contents.py:264-271) -/
def getSection [DecidableEq V] (d : Kids V) (v : V) (field : Str) : Except Err (Item V) :=
  match filterE (hasField field v) (items d) with
  | .error e => .error e
  | .ok l => single l

/-- `key in s and s[key][0] == name` (htc_contents.py:278), where `name` is not defined -/
def hasElement (key : Str) (x : Item V) : Except Err Bool :=
  match kidsOf x with
  | none => .ok false
  | some d => match look key d with
    | none => .ok false
    | some (.line _ (_ :: _) _) => .error .name
    | some (.line _ [] _) => .error .index
    | some _ => .error .key

/-- `get_element(key, value)` for a text as key (htc_contents.py:273-286) -/
def getElement (d : Kids V) (key : Str) : Except Err (Item V) :=
  match filterE (hasElement key) (items d) with
  | .error e => .error e
  | .ok l => single l

/-- `s.values[i] == value` (htc_contents.py:276); a section has no values -/
def hasValue [DecidableEq V] (i : Nat) (v : V) : Item V → Except Err Bool
  | .line _ vals _ => match vals[i]? with
    | some w => .ok (decide (w = v))
    | none => .error .index
  | _ => .error .key

/-- `get_element(key, value)` for a whole number as key (htc_contents.py:273-286) -/
def getElementAt [DecidableEq V] (d : Kids V) (i : Nat) (v : V) : Except Err (Item V) :=
  match filterE (hasValue i v) (items d) with
  | .error e => .error e
  | .ok l => single l

/-- `self.k` as something to change: its dictionary is changed by `f` -/
def within (d : Kids V) (k : Str) (f : Kids V → Kids V × Option Err) : Kids V × Option Err :=
  match look k d with
  | none => (d, some .key)
  | some (.line _ _ _) => (d, some .type)
  | some (.sec n bc ec kids) => (put k (.sec n bc ec (f kids).1) d, (f kids).2)
  | some (.out n bc ec kids ss) => (put k (.out n bc ec (f kids).1 ss) d, (f kids).2)

/-- one assignment, which does not raise -/
def assign (k : Str) (v : List V) (d : Kids V) : Kids V × Option Err := (setAttr d k v, none)

/-- one statement after another -/
def andThen (r : Kids V × Option Err) (f : Kids V → Kids V × Option Err) : Kids V × Option Err :=
  match r.2 with
  | some e => (r.1, some e)
  | none => f r.1

/-- `self.simulation.time_stop[0]` (htc_file.py:284) -/
def timeStop (d : Kids V) : Except Err V :=
  match look "simulation".toList d with
  | none => .error .key
  | some x => match kidsOf x with
    | none => .error .type
    | some kids => match look "time_stop".toList kids with
      | none => .error .key
      | some (.line _ (v :: _) _) => .ok v
      | some (.line _ [] _) => .error .index
      | some _ => .error .key

/-- the statements of `set_time` behind the first one (htc_file.py:285-290) -/
def setRest (start step : Option V) (stop : V) (d : Kids V) : Kids V × Option Err :=
  andThen (match step with
    | some s => within d "simulation".toList fun k => within k "newmark".toList (assign "deltat".toList [s])
    | none => (d, none)) fun d =>
  match start with
  | none => (d, none)
  | some a => andThen (within d "output".toList (assign "time".toList [a, stop])) fun d =>
    if (look "wind".toList d).isSome then within d "wind".toList (assign "scale_time_start".toList [a]) else (d, none)

/-- `set_time(start, stop, step)` (htc_file.py:279-290): the file afterwards, and the exception, if any -/
def setTime (d : Kids V) (start stop step : Option V) : Kids V × Option Err :=
  match stop with
  | some t => andThen (within d "simulation".toList (assign "time_stop".toList [t])) (setRest start step t)
  | none => match timeStop d with
    | .error e => (d, some e)
    | .ok t => setRest start step t d

end Verif.HtcEdit
