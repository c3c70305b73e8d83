import Verif.Py.Str
import Verif.Py.Dec
/-!
# Tecplot ASCII files — `/repo/weio/tecplot_file.py`

`_process_merged_line` (44-86), `read_tecplot` (88-146), `TecplotFile.write` (185-203).

The texts of numbers are parameters (`Txt`): `np.array2string` gives the padded
words of a row, `float`/`np.loadtxt` read a word, `is_number` (28-41) tests one,
and `repr` prints the dictionaries of `zone` and `datasetauxdata`.

Simplifications: lines end with `\n` (other universal newlines are not modelled);
`np.array2string` summarises rows of more than 1000 numbers, which is not modelled
(such rows are wrapped here); the file is read into a new object.
-/
namespace Verif.Tecplot
open Verif.Py

/-- `Keywords` (tecplot_file.py:22) -/
inductive Sec where
  | title | variables | zone | text | geometry | aux | customlabels | varaux
deriving DecidableEq, Repr

/-- the keyword of a section (tecplot_file.py:22) -/
def Sec.kw : Sec → Str
  | .title => "title".toList
  | .variables => "variables".toList
  | .zone => "zone".toList
  | .text => "text".toList
  | .geometry => "geometry".toList
  | .aux => "datasetauxdata".toList
  | .customlabels => "customlabels".toList
  | .varaux => "varauxdata".toList

/-- the list `Keywords` (tecplot_file.py:22) -/
def keywords : List Sec := [.title, .variables, .zone, .text, .geometry, .aux, .customlabels, .varaux]

inductive Err where
  | wrong      -- WrongFormatError (also any other exception, tecplot_file.py:182-183)
  | broken     -- BrokenFormatError
deriving DecidableEq, Repr

/-- a value of `zone`/`datasetauxdata`: a number or a text (tecplot_file.py:65-68, 75-78) -/
inductive Val (F : Type) where
  | num (x : F)
  | txt (s : Str)
deriving DecidableEq, Repr

/-- number texts and Python's `repr` of a dictionary -/
structure Txt (F : Type) where
  fmt : List F → List Str              -- the words of `np.array2string(row)`
  dec : Str → Option F                 -- `float(word)`
  isNum : Str → Bool                   -- `is_number`
  dict : List (Str × Val F) → Str      -- `repr` of a dictionary

/-- the object: a dictionary with optional keys -/
structure Doc (F : Type) where
  title : Option Str := none
  vars : Option (List Str) := none
  zone : Option (List (Str × Val F)) := none
  aux : Option (List (Str × Val F)) := none
  text : Option Str := none
  geometry : Option Str := none
  customlabels : Option Str := none
  varaux : Option Str := none
  data : Option (List (List F)) := none
deriving DecidableEq, Repr

/-- `s.replace(cc, c)` for a doubled character (tecplot_file.py:52, 55) -/
def collapse (c : Char) : Str → Str
  | [] => []
  | [a] => [a]
  | a :: b :: s => if a = c ∧ b = c then c :: collapse c s else a :: collapse c (b :: s)

/-- `s.replace('" "', ',')` (tecplot_file.py:57) -/
def joinQ : Str → Str
  | [] => []
  | [a] => [a]
  | [a, b] => [a, b]
  | a :: b :: d :: s =>
    if a = '"' ∧ b = ' ' ∧ d = '"' then ',' :: joinQ s else a :: joinQ (b :: d :: s)

/-- the variables of the merged line (tecplot_file.py:50-61) -/
def procVars (line : Str) : List Str :=
  let line := strip (replaceChar '=' [] line)
  let line := strip (replaceChar ',' [' '] line)
  let line := strip (collapse ' ' line)
  let line := strip (replaceChar '[' ['_', '['] line)
  let line := strip (replaceChar '(' ['_', '('] line)
  let line := strip (collapse '_' line)
  if line.head? = some '"' then
    splitOn ',' (replaceChar '"' [] (joinQ line))
  else words line

/-- the pair of a `zone`/`datasetauxdata` line (tecplot_file.py:65-71, 76-82) -/
def procPair (T : Txt F) (line : Str) : Except Err (Str × Val F) :=
  match splitOn '=' line with
  | k :: v :: _ =>
    let v := strip (replaceChar '"' [] v)
    if T.isNum v then
      match T.dec v with
      | some x => .ok (k, .num x)
      | none => .error .wrong
    else .ok (k, .txt v)
  | _ => .error .wrong       -- IndexError

/-- dictionary assignment -/
def setKey (k : Str) (v : Val F) : List (Str × Val F) → List (Str × Val F)
  | [] => [(k, v)]
  | (k', v') :: d => if k' = k then (k', v) :: d else (k', v') :: setKey k v d

/-- `_process_merged_line` (tecplot_file.py:44-86) -/
def process (T : Txt F) (s : Sec) (merged : Str) (d : Doc F) : Except Err (Doc F) :=
  let line := strip (merged.drop s.kw.length)
  match s with
  | .title => .ok { d with title := some line }
  | .variables => .ok { d with vars := some (procVars line) }
  | .zone => (procPair T line).map fun p => { d with zone := some (setKey p.1 p.2 (d.zone.getD [])) }
  | .aux => (procPair T line).map fun p => { d with aux := some (setKey p.1 p.2 (d.aux.getD [])) }
  | .text => .ok { d with text := some line }
  | .geometry => .ok { d with geometry := some line }
  | .customlabels => .ok { d with customlabels := some line }
  | .varaux => .ok { d with varaux := some line }

/-- `new_section` when it has exactly one entry (tecplot_file.py:112-114) -/
def secOf (l : Str) : Option Sec :=
  match keywords.filter (fun k => startsWith l k.kw) with
  | [s] => some s
  | _ => none

/-- all results, or nothing -/
def allSome : List (Option α) → Option (List α)
  | [] => some []
  | none :: _ => none
  | some a :: l => (allSome l).map (a :: ·)

/-- the numbers of one line of `np.loadtxt`: comments removed, words read -/
def loadLine (T : Txt F) (ln : Str) : Option (List F) :=
  allSome ((words (ln.takeWhile (· ≠ '#'))).map T.dec)

/-- `np.loadtxt` on the remaining lines, with the test of the shape (tecplot_file.py:137-139):
empty lines are skipped, all lines need the same number of words, and `M.shape[1]` exists only
for at least two rows and two columns (`np.loadtxt` squeezes the array). -/
def loadtxt (T : Txt F) (lns : List Str) (nvar : Nat) : Except Err (List (List F)) :=
  match allSome (lns.map (loadLine T)) with
  | none => .error .wrong
  | some rows =>
    match rows.filter (· ≠ []) with
    | r :: r' :: rs =>
      if (r' :: rs).all (fun x => x.length = r.length) then
        if r.length ≤ 1 then .error .wrong
        else if r.length ≠ nvar then .error .broken
        else .ok (r :: r' :: rs)
      else .error .wrong
    | _ => .error .wrong

/-- the section in progress: the text merged so far (tecplot_file.py:99-100) -/
abbrev Cur := Option (Sec × Str)

/-- processing of the section in progress, if any (tecplot_file.py:118-119, 133-134) -/
def flush (T : Txt F) (cur : Cur) (d : Doc F) : Except Err (Doc F) :=
  match cur with
  | none => .ok d
  | some (s, m) => process T s m d

/-- the numerical part (tecplot_file.py:133-141) -/
def loadData (T : Txt F) (cur : Cur) (d : Doc F) (lns : List Str) : Except Err (Doc F) :=
  match flush T cur d with
  | .error e => .error e
  | .ok d =>
    match d.vars with
    | none => .error .wrong      -- KeyError
    | some vs =>
      match loadtxt T lns vs.length with
      | .error e => .error e
      | .ok M => .ok { d with data := some M }

/-- whether the variables must be known already (tecplot_file.py:125-130) -/
def needsVars : Sec → Bool
  | .title => false
  | .variables => false
  | _ => true

/-- the reading loop (tecplot_file.py:104-145) -/
def loop (T : Txt F) : List Str → Cur → Doc F → Except Err (Doc F)
  | [], _, d => .ok d
  | ln :: rest, cur, d =>
    let line := strip ln
    if line = [] then .ok d
    else if (lower line).head? = some '#' then loop T rest cur d
    else
      match secOf (lower line) with
      | some s =>
        match flush T cur d with
        | .error e => .error e
        | .ok d => loop T rest (some (s, line)) d
      | none =>
        match cur with
        | none => .error .wrong
        | some (s, m) =>
          if needsVars s && d.vars.isNone then .error .wrong
          else if T.isNum ((words (lower line)).headD []) then loadData T (some (s, m)) d (ln :: rest)
          else loop T rest (some (s, m ++ [' '] ++ line)) d

/-- `TecplotFile.read` on the content of a file (tecplot_file.py:88-146, 176-183) -/
def readDoc (T : Txt F) (text : Str) : Except Err (Doc F) :=
  loop T (splitOn '\n' text) none {}

/-- the lines of `np.array2string`, which are filled up to 74 characters; `line` is the line in
progress, with one blank of indentation (numpy's `_extendLine`) -/
def wrap (line : Str) : List Str → List Str
  | [] => [line]
  | [w] => if 1 < line.length ∧ 74 < line.length + w.length then [rstrip line, ' ' :: w] else [line ++ w]
  | w :: w' :: ws =>
    if 1 < line.length ∧ 74 < line.length + w.length then rstrip line :: wrap (' ' :: w ++ [' ']) (w' :: ws)
    else wrap (line ++ w ++ [' ']) (w' :: ws)

/-- the text of a row without its brackets (tecplot_file.py:202-203) -/
def rowText (T : Txt F) (row : List F) : Str :=
  (joinWith ['\n'] (wrap [' '] (T.fmt row))).drop 1

/-- `'"{}"'.format(col)` (tecplot_file.py:195) -/
def quoted (n : Str) : Str := '"' :: (n ++ ['"'])

/-- a line `k = value` for a key that is present (tecplot_file.py:196-198) -/
def keyLine (s : Sec) (v : Option Str) : List Str :=
  match v with
  | none => []
  | some v => [s.kw ++ " = ".toList ++ v]

/-- `TecplotFile.write` (tecplot_file.py:191-203); without variables a KeyError -/
def writeDoc (T : Txt F) (d : Doc F) : Except Err Str :=
  match d.vars with
  | none => .error .wrong
  | some vs =>
    .ok (((match d.title with | none => [] | some t => ["TITLE = ".toList ++ t]) ++
      ["VARIABLES = ".toList ++ joinWith [','] (vs.map quoted)] ++
      keyLine .zone (d.zone.map T.dict) ++ keyLine .text d.text ++ keyLine .geometry d.geometry ++
      keyLine .aux (d.aux.map T.dict) ++ keyLine .customlabels d.customlabels ++
      keyLine .varaux d.varaux ++
      (match d.data with | none => [] | some M => M.map (rowText T))).flatMap (· ++ ['\n']))

/-- one write/read cycle -/
def cycle (T : Txt F) (d : Doc F) : Except Err (Doc F) :=
  match writeDoc T d with
  | .error e => .error e
  | .ok s => readDoc T s

end Verif.Tecplot
