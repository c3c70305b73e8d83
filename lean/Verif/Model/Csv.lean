import Verif.Py.Str
/-!
# CSV files — `/repo/weio/csv_file.py`

A file is the list of its lines (text, without line ends; encodings are not modelled).
Numbers are texts: `Txt` tells which strings `float()` and `int()` accept.
`pandas.read_csv` and `DataFrame.to_csv` are modelled by `readCsv` and `toCsv`, which follow the
documented behaviour of pandas for `header=None`, `index=False` and texts without quotes.
Simplifications: separators are one character, `\s+` or empty; the comment mark is one character;
`commentLines` given by the user are natural numbers.
-/
namespace Verif.Csv
open Verif.Py

/-- what Python accepts as numbers and letters -/
structure Txt where
  isFloat : Str → Bool
  isInt : Str → Bool
  isAlpha : Str → Bool

/-- values of `self.sep` other than `None`: `r'\s+'`, one character, `''` -/
inductive Sep where
  | ws
  | ch (c : Char)
  | empty
deriving DecidableEq, Repr

/-- a cell: its text, or `none` for a missing one (NaN) -/
abbrev Cell := Option Str

/-- attributes of a `CSVFile` (csv_file.py:36-59) -/
structure Obj where
  sep : Option Sep := none
  colNames : List Str := []
  commentChar : Option Char := none
  commentLines : List Nat := []
  colNamesLine : Option Int := none
  detect : Bool := true
  header : List Str := []
  /-- `self.data`: names of the columns and rows -/
  columns : List Str := []
  data : List (List Cell) := []
deriving DecidableEq, Repr

inductive Err where
  | wrongFormat      -- WrongFormatError
  | attribute        -- AttributeError: 'NoneType' object has no attribute ...
  | emptyData        -- pandas.errors.EmptyDataError
  | type             -- TypeError of pandas for `sep=None`
  | unmodelled       -- separator sniffing of pandas, quoted cells
deriving DecidableEq, Repr

/-- nested function `readline` (csv_file.py:76-82) -/
def readline (lines : List Str) (i : Int) : Option Str :=
  if i < 0 then none else (lines[i.toNat]?).map strip

/-- nested function `split` (csv_file.py:83-89) -/
def split (sep : Option Sep) (s : Option Str) : List Str :=
  match s with
  | none => []
  | some s =>
    match sep with
    | some (.ch c) => (splitOn c (strip s)).map strip
    | _ => words (strip s)

/-- `sum([strIsFloat(s) for s in l])` (csv_file.py:90-95, 189) -/
def nFloat (T : Txt) (l : List Str) : Nat := l.countP T.isFloat

/-- Safety (csv_file.py:97-98) -/
def safeSep : Option Sep → Option Sep
  | some .empty => some .ws
  | some (.ch ' ') => some .ws
  | s => s

/-- files that are not CSV (csv_file.py:103-112); `none` if there is no first line -/
def excluded (T : Txt) (lines : List Str) : Except Err Bool :=
  match readline lines 0 with
  | none => .error .attribute
  | some line =>
    match words line with
    | w0 :: w1 :: _ => .ok (T.isInt w0 && T.isAlpha w1)
    | _ => .ok false

/-- lines at the start of the file that begin with the comment character, at most `n`
(csv_file.py:128-134, 143-149) -/
def commented (c : Char) : Nat → List Str → List Str
  | 0, _ => []
  | _, [] => []
  | n + 1, l :: ls => if (strip l).head? = some c then strip l :: commented c n ls else []

/-- characters that start a comment (csv_file.py:62) -/
def commentChars : List Char := ['#', '!', ';']

/-- the header (csv_file.py:117-149): object with `header`, `commentChar`, `commentLines` -/
def readHeader (o : Obj) (lines : List Str) : Obj :=
  match o.commentLines with
  | k :: ks =>
    let m := ks.foldl max k
    { o with header := ((List.range (m + 1)).filter (· ∈ o.commentLines)).map fun i => (lines[i]?.map strip).getD [] }
  | [] =>
    match o.commentChar with
    | some c =>
      let h := commented c 100 lines
      { o with header := h, commentLines := List.range h.length }
    | none =>
      match (readline lines 0).bind List.head? with
      | some c => if c ∈ commentChars then { o with header := commented c 100 lines, commentChar := some c } else { o with header := [] }
      | none => { o with header := [] }

/-- does `head[1].find(c) > 0` hold? (csv_file.py:161-165) -/
def findPos (c : Char) (s : Str) : Bool :=
  match find [c] s with
  | some (_ + 1) => true
  | _ => false

/-- detection of the separator (csv_file.py:154-171) -/
def detectSep (sep : Option Sep) (lines : List Str) (iStart : Nat) : Option Sep :=
  match sep with
  | some s => some s
  | none =>
    match (lines[iStart + 1]?).map strip with
    | none => none
    | some h =>
      if findPos ',' h then some (.ch ',') else if findPos ';' h then some (.ch ';')
      else if findPos '\t' h then some (.ch '\t') else some .ws

/-- is the line taken for column names? (csv_file.py:190) -/
def isNames (T : Txt) (l : List Str) : Bool := nFloat T l == 0 || (2 < l.length && 2 * nFloat T l ≤ l.length)

/-- `first_line.count('(')+first_line.count('[')` (csv_file.py:200) -/
def nPa (s : Str) : Nat := s.count '(' + s.count '['

/-- names in the header (csv_file.py:207-223): the first header line that fits -/
def headerNames (T : Txt) (sep : Option Sep) (commentChar : Option Char) (nFirst : Nat) (nCols : Nat) : List Str → Option (List Str)
  | [] => none
  | l :: ls =>
    let l' := match commentChar with | some _ => l.drop 1 | none => l
    let cols := split sep (some l')
    if cols.length = nFirst ∧ (nFloat T cols : Int) ≤ (nCols : Int) - 1 then some cols
    else headerNames T sep commentChar nFirst nCols ls

/-- column names from the data (csv_file.py:186-223): object and start line -/
def namesFromData (T : Txt) (o : Obj) (lines : List Str) (iStart : Nat) : Except Err (Obj × Nat) :=
  let colNames := split o.sep (readline lines iStart)
  if isNames T colNames then
    match readline lines (iStart + 1 : Nat) with
    | none => .error .attribute
    | some first =>
      let cols := split o.sep (some first)
      if 2 * nPa first > colNames.length then
        let names := if cols.length = colNames.length then
            List.zipWith (fun c u => strip c ++ ['_'] ++ strip u) colNames cols else colNames
        .ok ({ o with colNames := names, colNamesLine := some iStart }, iStart + 2)
      else .ok ({ o with colNames := colNames, colNamesLine := some iStart }, iStart + 1)
  else if o.header.length > 0 ∧ o.sep ≠ none then
    match headerNames T o.sep o.commentChar (split o.sep (readline lines iStart)).length colNames.length o.header with
    | some cols => .ok ({ o with colNames := cols }, iStart)
    | none => .ok (o, iStart)
  else .ok (o, iStart)

/-- column names from a given line (csv_file.py:174-185) -/
def namesFromLine (o : Obj) (lines : List Str) (iStart : Nat) (k : Int) : Except Err (Obj × Nat) :=
  if k < 0 then
    match readline lines (iStart + k) with
    | none => .error .attribute
    | some line =>
      let line := strip line
      let line := match o.commentChar with
        | some c => if line.head? = some c then strip (line.drop 1) else line
        | none => line
      .ok ({ o with colNames := split o.sep (some line) }, iStart)
  else .ok ({ o with colNames := split o.sep (readline lines k) }, max iStart (k.toNat + 1))

/-- column names (csv_file.py:173-223) -/
def readNames (T : Txt) (o : Obj) (lines : List Str) (iStart : Nat) : Except Err (Obj × Nat) :=
  match o.colNamesLine with
  | some k => namesFromLine o lines iStart k
  | none =>
    if o.colNames.length > 0 then .ok (o, iStart)
    else if !o.detect then .ok (o, iStart)
    else namesFromData T o lines iStart

/-- `skiprows` (csv_file.py:225-230) as a predicate on line numbers -/
def skips (o : Obj) (iStart : Nat) (i : Nat) : Bool := i < iStart || o.colNamesLine = some i || i ∈ o.commentLines

/-- pandas: cut of the comment -/
def uncomment (c : Option Char) (l : Str) : Str :=
  match c with
  | none => l
  | some c => l.takeWhile (· ≠ c)

/-- pandas: the lines with data, numbered from `i` -/
def dataLines (skip : Nat → Bool) (c : Option Char) : Nat → List Str → List Str
  | _, [] => []
  | i, l :: ls =>
    let r := dataLines skip c (i + 1) ls
    if skip i then r else
      let l := uncomment c l
      if strip l = [] then r else l :: r

/-- pandas: cells of a line -/
def cells (sep : Sep) (l : Str) : List Str :=
  match sep with
  | .ch c => splitOn c l
  | _ => words l

/-- an empty cell is NaN.  Simplification: so are texts such as `NA` for pandas, which do not occur
among written numbers. -/
def toCell (s : Str) : Cell := if s = [] then none else some s

/-- missing cells are NaN -/
def pad (n : Nat) (r : List Str) : List Cell := r.map toCell ++ List.replicate (n - r.length) none

/-- `pd.read_csv(f, sep, skiprows, header=None, comment)`: number of columns and rows.  The first
row gives the number of columns, longer rows are an error (`ParserError`), shorter ones are filled. -/
def readCsv (sep : Sep) (skip : Nat → Bool) (c : Option Char) (lines : List Str) : Except Err (Nat × List (List Cell)) :=
  let ls := dataLines skip c 0 lines
  if ls.any (fun l => '"' ∈ l) then .error .unmodelled
  else match ls.map (cells sep) with
    | [] => .error .emptyData
    | r :: rs =>
      if rs.any (fun x => r.length < x.length) then .error .wrongFormat
      else .ok (r.length, (r :: rs).map (pad r.length))

/-- `'C{}'.format(i)` -/
def genName (i : Nat) : Str := 'C' :: (toString i).toList

/-- a tab becomes any blanks (csv_file.py:231-233) -/
def tabWs : Option Sep → Option Sep
  | some (.ch '\t') => some .ws
  | s => s

/-- the rest of `_read` from the start line on (csv_file.py:225-247) -/
def readData (o : Obj) (lines : List Str) (iStart : Nat) : Except Err Obj :=
  let o := { o with sep := tabWs o.sep }
  match o.sep with
  | none => .error .unmodelled
  | some sep =>
    match readCsv sep (skips o iStart) o.commentChar lines with
    | .error e => .error e
    | .ok (n, rows) =>
      let names := if o.colNames.length = 0 ∨ o.colNames.length ≠ n then (List.range n).map genName else o.colNames
      .ok { o with colNames := names, columns := names.map strip, data := rows }

/-- `_read` (csv_file.py:61-247) -/
def read (T : Txt) (o : Obj) (lines : List Str) : Except Err Obj :=
  let o := { o with sep := safeSep o.sep }
  match excluded T lines with
  | .error e => .error e
  | .ok true => .error .wrongFormat
  | .ok false =>
    let o := readHeader o lines
    let iStart := o.header.length
    let o := { o with sep := detectSep o.sep lines iStart }
    match readNames T o lines iStart with
    | .error e => .error e
    | .ok (o, iStart) => readData o lines iStart

/-- pandas/csv: a field with the separator, a quote or a line end is quoted, quotes are doubled -/
def quote (sep : Char) (s : Str) : Str :=
  if sep ∈ s ∨ '"' ∈ s ∨ '\n' ∈ s ∨ '\r' ∈ s then '"' :: (replaceChar '"' ['"', '"'] s ++ ['"']) else s

/-- text of a cell: NaN is empty -/
def cellText (c : Cell) : Str := c.getD []

/-- `DataFrame.to_csv(sep, index=False)`: the lines of the rows -/
def toCsv (sep : Char) (rows : List (List Str)) : List Str := rows.map fun r => joinWith [sep] (r.map (quote sep))

/-- `_write` (csv_file.py:249-269): the lines written.  Simplification: in the branch with a
header, pandas and the fallback write the same (texts without special characters). -/
def write (o : Obj) : Except Err (List Str) :=
  match o.sep with
  | none => .error .type
  | some s =>
    let c := match s with | .ch c => c | _ => '\t'
    let rows := o.data.map (·.map cellText)
    if o.header.length > 0 then .ok (o.header ++ toCsv c rows)
    else .ok (toCsv c (o.columns :: rows))

end Verif.Csv
