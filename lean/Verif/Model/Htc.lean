import Verif.Model.FastLine
/-!
# HAWC2 HTC files

`/repo/weio/wetb/hawc2/htc_contents.py` (parse_next_line 21-27, fmt_value 30-36,
`_add_contents` 129-137, HTCSection 193-259, HTCLine 295-343, HTCOutputSection
357-395, HTCOutputAtTimeSection 409-427, HTCSensor 430-468) and
`/repo/weio/wetb/hawc2/htc_file.py` (load 163-184, `__str__` 223-225).

Lists of lines are consumed from the front, as the code does with `lines.pop(0)`.
Functions that call themselves take a bound on the number of steps; `Err.fuel` is
the outcome when it is too small.  Simplifications: `lower` is ASCII; files
included with `continue_in_file`, jinja tags and encodings are not modelled.
-/
namespace Verif.Htc
open Verif.Py Verif.FastLine

/-- what `int(float(v))` sees -/
inductive Kind0 where
  | int (n : Int)   -- integral value
  | frac            -- finite, not integral
  | nan
  | inf
deriving DecidableEq, Repr

/-- Python floats: parsing, `str`, integrality -/
structure Flt where
  F : Type
  parse : Str → Option F
  repr : F → Str
  kind : F → Kind0

/-- values of a line (htc_contents.py:30-36) -/
inductive Val (F : Type) where
  | int (n : Int)
  | flt (x : F)
  | str (s : Str)
deriving DecidableEq, Repr

/-- exceptions -/
inductive Err where
  | noEnd (name : Str)   -- Exception("Section '%s' has not end")  (246-247)
  | index                -- IndexError: lines[0] of an empty list (238), split()[0] (375)
  | value                -- ValueError (415-417)
  | overflow             -- OverflowError of int(inf) (32)
  | fuel
deriving DecidableEq, Repr

/-- `v.replace("\\", "/")` (36) -/
def slashes (v : Str) : Str := replaceChar '\\' ['/'] v

/-- `fmt_value` (30-36); `back` is the treatment of texts -/
def fmtWith (back : Str → Str) (P : Flt) (v : Str) : Except Err (Val P.F) :=
  match P.parse v with
  | none => .ok (.str (back v))
  | some x =>
    match P.kind x with
    | .int n => .ok (.int n)
    | .frac => .ok (.flt x)
    | .nan => .ok (.str (back v))
    | .inf => .error .overflow

def fmtValue (P : Flt) (v : Str) : Except Err (Val P.F) := fmtWith slashes P v

/-- `fmt` of sensors (453-459): texts are kept -/
def fmtSensor (P : Flt) (v : Str) : Except Err (Val P.F) := fmtWith id P v

/-- `[fmt_value(v) for v in values]` -/
def fmtAll (f : Str → Except Err (Val F)) : List Str → Except Err (List (Val F))
  | [] => .ok []
  | v :: vs =>
    match f v with
    | .error e => .error e
    | .ok x => match fmtAll f vs with
      | .error e => .error e
      | .ok xs => .ok (x :: xs)

/-- a continuation of the comment: `lines[0].lstrip().startswith(";")` (25) -/
def isComment (l : Str) : Bool := startsWith (lstrip l) [';']

/-- `parse_next_line(lines)` (21-27) on `l :: rest`: text, comments, remaining lines -/
def parseNext (l : Str) (rest : List Str) : Str × Str × List Str :=
  let parts := splitOn ';' l
  let line := parts.headD []
  let comments := rstrip (joinWith [';'] parts.tail)
  let more := rest.takeWhile isComment
  (strip line, more.foldl (fun c m => c ++ '\n' :: rstrip m) comments, rest.dropWhile isComment)

/-- `.strip(" \t")` -/
def stripBlank (s : Str) : Str := stripBy (fun c => c == ' ' || c == '\t') s

/-! ## The tree -/

/-- `HTCSensor` (430-439) -/
structure Sensor (F : Type) where
  typ : Str
  sens : Str
  vals : List (Val F)
  cmt : Str
deriving DecidableEq

/-- the three classes of sections -/
inductive Kind (F : Type) where
  | plain
  | output
  | atTime (typ : Str) (time : F)
deriving DecidableEq

/-- lines and sections.  The ordered dictionary `contents` of a section is given by
its list of keys and the list of its entries. -/
inductive Node (F : Type) where
  | line (name : Str) (vals : List (Val F)) (cmt : Str)
  | sec (kind : Kind F) (name bc ec : Str) (keys : List Str) (items : List (Node F))
      (sensors : List (Sensor F))

/-- `name_` -/
def Node.name : Node F → Str
  | .line n _ _ => n
  | .sec _ n _ _ _ _ _ => n

/-- position of the first `__` in a name -/
def cut2 : Str → Str
  | [] => []
  | c :: s => if startsWith (c :: s) ['_', '_'] then [] else c :: cut2 s

/-- `HTCLine(name, values, comments)` (299-305) -/
def mkLine (name : Str) (vals : List (Val F)) (cmt : Str) : Node F :=
  .line (cut2 name) vals (stripBlank cmt)

/-! ## Adding entries (129-137) -/

/-- the loop `while contents.name_ + ending in self` from the ending `__k`; `n`
bounds the number of steps -/
def freeKey (keys : List Str) (name : Str) : Nat → Nat → Str
  | 0, k => name ++ "__".toList ++ showInt k
  | n + 1, k =>
    if name ++ "__".toList ++ showInt k ∈ keys then freeKey keys name n (k + 1)
    else name ++ "__".toList ++ showInt k

/-- the key chosen by `_add_contents` (130-136) -/
def newKey (keys : List Str) (name : Str) : Str :=
  if name ∉ keys then name else freeKey keys name keys.length 2

/-- `_add_contents(contents)` (129-137) on the dictionary; the key is never one of
the present ones (see `newKey_not_mem`), so the entry goes to the end -/
def addContents (keys : List Str) (items : List (Node F)) (nd : Node F) : List Str × List (Node F) :=
  (keys ++ [newKey keys nd.name], items ++ [nd])

/-! ## Parsing -/

/-- `HTCLine.from_lines` (332-343) -/
def lineFrom (P : Flt) (l : Str) (rest : List Str) : Except Err (Node P.F × List Str) :=
  let (line, cmt, rest') := parseNext l rest
  match words line with
  | [] => .ok (mkLine line [] cmt, rest')
  | name :: vs =>
    match fmtAll (fmtValue P) vs with
    | .error e => .error e
    | .ok vals => .ok (mkLine name vals cmt, rest')

/-- `HTCSensor.from_lines` (441-461) -/
def sensorFrom (P : Flt) (l : Str) (rest : List Str) : Except Err (Sensor P.F × List Str) :=
  let (line, cmt, rest') := parseNext l rest
  match words line with
  | typ :: sens :: vs =>
    match fmtAll (fmtSensor P) vs with
    | .error e => .error e
    | .ok vals => .ok (⟨typ, sens, vals, stripBlank cmt⟩, rest')
  | _ => .ok (⟨[], [], [], stripBlank cmt⟩, rest')

/-- the class of a section from its name (229-235, 413-418) -/
def openKind (P : Flt) (name : Str) : Except Err (Kind P.F × Str) :=
  if name = "output".toList then .ok (.output, strip name)
  else if startsWith name "output_at_time".toList then
    match words name with
    | [n, typ, time] =>
      match P.parse time with
      | some x => .ok (.atTime typ x, strip n)
      | none => .error .value
    | _ => .error .value
  else .ok (.plain, strip name)

/-- the header of a section (228-235): kind, name, comments, remaining lines -/
def openSec (P : Flt) (l : Str) (rest : List Str) : Except Err (Kind P.F × Str × Str × List Str) :=
  let (line, bc, rest') := parseNext l rest
  match openKind P (lower (line.drop 6)) with
  | .error e => .error e
  | .ok (k, n) => .ok (k, n, stripBlank bc, rest')

/-- `lines[0].lower().startswith("begin")` -/
def isBegin (l : Str) : Bool := startsWith (lower l) "begin".toList
/-- `lines[0].lower().startswith("end")` -/
def isEnd (l : Str) : Bool := startsWith (lower l) "end".toList

/-- names kept as lines in output sections (377) -/
def outputLine (name : Str) : Bool :=
  name = "filename".toList || name = "data_format".toList || name = "buffer".toList || name = "time".toList

/-- `section.line_from_line(lines)` (250-251, 374-380): a line or a sensor -/
def lineFromLine (P : Flt) (k : Kind P.F) (l : Str) (rest : List Str) :
    Except Err ((Node P.F ⊕ Sensor P.F) × List Str) :=
  match k with
  | .plain => (lineFrom P l rest).map (fun p => (.inl p.1, p.2))
  | _ =>
    match words l with
    | [] => .error .index
    | w :: _ =>
      if outputLine w then (lineFrom P l rest).map (fun p => (.inl p.1, p.2))
      else (sensorFrom P l rest).map (fun p => (.inr p.1, p.2))

/-- `if lines[0].strip() == "": lines.pop(0)` (237-238) -/
def skipBlank : List Str → List Str
  | l :: rest => if strip l = [] then rest else l :: rest
  | [] => []

/-- the loop `while lines` of `HTCSection.from_lines` (236-247): contents collected
so far are in `keys`, `items`, `sensors` -/
def secLoop (P : Flt) : Nat → Kind P.F → Str → Str → List Str → List (Node P.F) → List (Sensor P.F) →
    List Str → Except Err (Node P.F × List Str)
  | 0, _, _, _, _, _, _, _ => .error .fuel
  | _ + 1, _, name, _, _, _, _, [] => .error (.noEnd name)
  | n + 1, kind, name, bc, keys, items, sensors, l0 :: rest0 =>
    match skipBlank (l0 :: rest0) with
    | [] => .error .index
    | l :: rest =>
      if isBegin l then
        match openSec P l rest with
        | .error e => .error e
        | .ok (k', n', bc', rest1) =>
          match secLoop P n k' n' bc' [] [] [] rest1 with
          | .error e => .error e
          | .ok (nd, rest2) =>
            secLoop P n kind name bc (addContents keys items nd).1 (addContents keys items nd).2 sensors rest2
      else if isEnd l then
        .ok (.sec kind name bc (parseNext l rest).2.1 keys items sensors, (parseNext l rest).2.2)
      else
        match lineFromLine P kind l rest with
        | .error e => .error e
        | .ok (.inl nd, rest1) =>
          secLoop P n kind name bc (addContents keys items nd).1 (addContents keys items nd).2 sensors rest1
        | .ok (.inr s, rest1) => secLoop P n kind name bc keys items (sensors ++ [s]) rest1

/-- `HTCSection.from_lines(lines)` (226-248) on `l :: rest` -/
def sectionFrom (P : Flt) (fuel : Nat) (l : Str) (rest : List Str) : Except Err (Node P.F × List Str) :=
  match openSec P l rest with
  | .error e => .error e
  | .ok (k, n, bc, rest1) => secLoop P fuel k n bc [] [] [] rest1

/-- an HTC file: initial comments, contents -/
structure File (F : Type) where
  comments : List Str
  keys : List Str
  items : List (Node F)

/-- the loop of `HTCFile.load` (htc_file.py:174-184) on stripped lines -/
def loadLoop (P : Flt) : Nat → File P.F → List Str → Except Err (File P.F)
  | _, f, [] => .ok f
  | 0, _, _ :: _ => .error .fuel
  | n + 1, f, l :: rest =>
    if startsWith l [';'] then loadLoop P n { f with comments := f.comments ++ [strip l ++ ['\n']] } rest
    else if isBegin l then
      match sectionFrom P n l rest with
      | .error e => .error e
      | .ok (nd, rest1) =>
        loadLoop P n { f with keys := (addContents f.keys f.items nd).1, items := (addContents f.keys f.items nd).2 } rest1
    else
      match lineFrom P l rest with
      | .error e => .error e
      | .ok (nd, rest1) =>
        if nd.name = "exit".toList then .ok f
        else loadLoop P n { f with keys := (addContents f.keys f.items nd).1, items := (addContents f.keys f.items nd).2 } rest1

/-- `HTCFile.load` of a text (htc_file.py:163-184, 194) -/
def load (P : Flt) (text : Str) : Except Err (File P.F) :=
  let lines := (splitOn '\n' (text.filter (· ≠ '\r'))).map strip
  loadLoop P (lines.length + 1) ⟨[], [], []⟩ lines

/-! ## Printing -/

/-- `str(v)` of a value -/
def showVal (P : Flt) : Val P.F → Str
  | .int n => showInt n
  | .flt x => P.repr x
  | .str s => s

/-- indentation -/
def indent (level : Nat) : Str := List.replicate (2 * level) ' '

/-- `("", "\t" + self.str_values())[bool(self.values)]` (314, 467) -/
def valsText (P : Flt) (vals : List (Val P.F)) : Str :=
  if vals = [] then [] else '\t' :: joinWith [' '] (vals.map (showVal P))

/-- `("", "\t" + comments)[bool(comments.strip())]` (315) -/
def cmtText (c : Str) : Str := if strip c = [] then [] else '\t' :: c

/-- `.replace("\t\n", "\n")` (255) -/
def tabNl : Str → Str
  | [] => []
  | [c] => [c]
  | c :: d :: s => if c = '\t' ∧ d = '\n' then '\n' :: tabNl s else c :: tabNl (d :: s)

/-- `HTCSensor.__str__` (463-468) -/
def sensorText (P : Flt) (level : Nat) (s : Sensor P.F) : Str :=
  indent level ++ s.typ ++ ' ' :: s.sens ++ valsText P s.vals ++ ';' :: cmtText s.cmt ++ ['\n']

/-- text behind `begin` (254-255, 389-390, 421-422) and the comment of that line;
`none`: the IndexError of `("", ...)[len(...)]` (422) -/
def beginText (P : Flt) (k : Kind P.F) (name bc : Str) : Option Str :=
  match k with
  | .plain => some (name ++ ';' :: tabNl (cmtText bc))
  | .output => some (name ++ ';' :: cmtText bc)
  | .atTime typ time =>
    match (strip bc).length with
    | 0 => some (name ++ ' ' :: typ ++ ' ' :: P.repr time ++ [';'])
    | 1 => some (name ++ ' ' :: typ ++ ' ' :: P.repr time ++ ';' :: '\t' :: bc)
    | _ => none

/-- comment of the `end` line (257-258, 393-394) -/
def endText (k : Kind F) (ec : Str) : Str :=
  match k with
  | .plain => tabNl (cmtText ec)
  | _ => cmtText ec

/-- entries in the order of `__iter__` (95-99): main bodies first.  Works on the
printed texts of the entries, `(is a main body, text)`. -/
def mainFirst (ts : List (Bool × Str)) : Str :=
  ((ts.filter (fun t => t.1)).map Prod.snd).flatten ++ ((ts.filter (fun t => !t.1)).map Prod.snd).flatten

mutual
/-- `__str__(level)` of lines (310-315) and sections (253-259, 388-395, 420-427);
`none`: IndexError (422) -/
def nodeText (P : Flt) (level : Nat) : Node P.F → Option Str
  | .line name vals cmt =>
    if name = [] then some []
    else some (indent level ++ name ++ valsText P vals ++ ';' :: cmtText cmt ++ ['\n'])
  | .sec kind name bc ec _ items sensors =>
    match beginText P kind name bc, itemTexts P (level + 1) items with
    | some b, some ts =>
      some (indent level ++ "begin ".toList ++ b ++ '\n' :: mainFirst ts ++
        (sensors.map (sensorText P (level + 1))).flatten ++
        indent level ++ "end ".toList ++ name ++ ';' :: endText kind ec ++ ['\n'])
    | _, _ => none
/-- texts of entries -/
def itemTexts (P : Flt) (level : Nat) : List (Node P.F) → Option (List (Bool × Str))
  | [] => some []
  | nd :: nds =>
    match nodeText P level nd, itemTexts P level nds with
    | some t, some ts => some ((nd.name = "main_body".toList, t) :: ts)
    | _, _ => none
end

/-- `HTCFile.__str__` (htc_file.py:223-225) -/
def fileText (P : Flt) (f : File P.F) : Option Str :=
  match itemTexts P 1 f.items with
  | some ts => some (f.comments.flatten ++ mainFirst ts ++ "exit;".toList)
  | none => none

end Verif.Htc
