import Verif.Model.FastLine
/-!
# Numeric tables of OpenFAST input files

`parseFASTNumTable`, `/repo/weio/fast_input_file.py:1153-1272`, and
`parseFASTFilTable` (1275-1288).

Simplifications
* `conv` is line 1226-1227: `float` of the text after the replacements
  true→1, false→0, noprint→0, print→1; `none` is the ValueError.
* the units (1188-1203, 1269-1271) are not returned; `hasUnits` (= `nHeaders>=2`)
  tells whether `Units` is a list or `None`.
* with `nHeaders==0`, the number of columns is given by a regular expression on
  the first line: `numCount`.
* cells of a `mix` table are texts, or `none` for the `0.0` of `np.zeros`.
-/
namespace Verif.FastTable
open Verif.Py Verif.FastLine

/-- exceptions raised by the table parser. -/
inductive TErr where
  | broken          -- BrokenFormatError
  | unbound         -- UnboundLocalError: `i` in the handler (1270), when nHeaders==0
  | other
deriving DecidableEq, Repr

/-- `cleanAfterChar` (982-988): cuts at the first `c` unless it is the first
character. -/
def cleanAfterChar (l : Str) (c : Char) : Str :=
  match find [c] l with
  | some i => if 0 < i then l.take i else l
  | none => l

/-- column names (1178-1186). -/
def headerNames (l : Str) : List Str :=
  let s := cleanLine l
  let s := cleanAfterChar s '['
  let s := cleanAfterChar s '('
  let s := cleanAfterChar s '!'
  let s := cleanAfterChar s '#'
  let s := if startsWith s ['!'] then strip (s.drop 1) else s
  words s

/-- the tokens of a data row of a `num` table (1209-1211). -/
def numTokens (l : Str) : List Str := words (cleanAfterChar (cleanAfterChar (lower l) '!') '#')

/-- the tokens of a data row of a `mix` table (1237-1239). -/
def mixTokens (l : Str) : List Str := words (cleanAfterChar (cleanAfterChar l '!') '#')

/-- lines 1226-1229 for one row: convert the first `nCols` tokens; fewer than
`nCols` is an error. -/
def numRow (conv : Str → Option F) (nCols : Nat) (v : List Str) : Except TErr (List F) :=
  match (v.take nCols).mapM conv with
  | none => .error .broken
  | some r => if r.length < nCols then .error .broken else .ok r

/-- lines 1247-1248 for one row: `Tab[row,0:len(v)] = v` on a row of zeros. -/
def mixRow (nCols : Nat) (v : List Str) : List (Option Str) :=
  let w := v.take (min v.length nCols)
  w.map some ++ List.replicate (nCols - w.length) none

/-- the rows of a `num` table once `nCols` is fixed (1208-1230). -/
def numRows (conv : Str → Option F) (nCols : Nat) : List Str → Except TErr (List (List F))
  | [] => .ok []
  | l :: ls =>
    match numRow conv nCols (numTokens l) with
    | .error e => .error e
    | .ok r => match numRows conv nCols ls with
      | .error e => .error e
      | .ok rs => .ok (r :: rs)

/-- the rows of a `mix` table once `nCols` is fixed (1235-1249). -/
def mixRows (nCols : Nat) : List Str → Except TErr (List (List (Option Str)))
  | [] => .ok []
  | l :: ls =>
    if startsWith (cleanAfterChar (cleanAfterChar l '!') '#') "---".toList then .error .broken
    else match mixRows nCols ls with
      | .error e => .error e
      | .ok rs => .ok (mixRow nCols (mixTokens l) :: rs)

/-- a parsed table: rows and column names. -/
structure Table (C : Type) where
  rows : List (List C)
  names : List Str

/-- the column names (1167-1186).  With `nHeaders==0` an IndexError on
`lines[nOffset]` is not caught properly: the handler (1270) uses `i`, unbound. -/
def tableNames (numCount : Str → Nat) (lines : List Str) (nHeaders nOffset : Nat) : Except TErr (List Str) :=
  if nHeaders = 0 then
    match lines[nOffset]? with
    | none => .error .unbound
    | some l => .ok ((List.range (numCount (cleanAfterChar l '!'))).map (fun j => 'C' :: Nat.toDigits 10 j))
  else .ok (headerNames (lines.getD 0 []))

/-- lines 1216-1221: more values than names on the first row of a `NodeCnt` table.
`Units` is `None` when `nHeaders<2`: TypeError. -/
def extendNames (names : List Str) (w nHeaders : Nat) : Except TErr (List Str) :=
  if w ≠ names.length ∧ (names.getLast?.map lower) = some "nodecnt".toList then
    (if 2 ≤ nHeaders then .ok (names ++ List.replicate (w - names.length) "Col".toList)
     else .error .broken)
  else .ok names

/-- `parseFASTNumTable(lines, n, nHeaders, 'num', nOffset)` (1153-1272).
`numCount` counts the numbers of the first line when `nHeaders==0`. -/
def parseNum (conv : Str → Option F) (numCount : Str → Nat) (lines : List Str) (n nHeaders nOffset : Nat) :
    Except TErr (Table F) :=
  if lines.length ≠ n + nHeaders + nOffset then .error .broken
  else
    match tableNames numCount lines nHeaders nOffset with
    | .error e => .error e
    | .ok names =>
      match lines.drop (nHeaders + nOffset) with
      | [] => .ok ⟨[], if nHeaders = 0 then [] else names⟩
      | l :: ls =>
        let w := (numTokens l).length
        -- 1212-1215 and 1218-1221: `ColNames[-1]` when the widths differ
        if w ≠ names.length ∧ names = [] then .error .broken
        else
          match extendNames names w nHeaders with
          | .error e => .error e
          | .ok names =>
            match numRows conv w (l :: ls) with
            | .error e => .error e
            | .ok rows => .ok ⟨rows, if nHeaders = 0 then [] else names.take w⟩

/-- `parseFASTNumTable(lines, n, nHeaders, 'mix', nOffset)` (1153-1272). -/
def parseMix (lines : List Str) (n nHeaders nOffset : Nat) : Except TErr (Table (Option Str)) :=
  if lines.length ≠ n + nHeaders + nOffset then .error .broken
  else if nHeaders = 0 then .error .unbound     -- NotImplementedError, `i` unbound
  else
    let names := headerNames (lines.getD 0 [])
    match lines.drop (nHeaders + nOffset) with
    | [] => .ok ⟨[], names⟩
    | l :: ls =>
      let w := (mixTokens l).length
      if w ≠ names.length ∧ names = [] then .error .broken
      else if names.length < w ∧ nHeaders < 2 then .error .broken   -- Units is None
      else
        let names := if names.length < w then names ++ List.replicate (w - names.length) "Col".toList else names
        match mixRows w (l :: ls) with
        | .error e => .error e
        | .ok rows => .ok ⟨rows, names.take w⟩

/-- `parseFASTFilTable` (1275-1288): first word of each line. -/
def parseFil (lines : List Str) (n : Nat) : Except TErr (List Str) :=
  if lines.length ≠ n then .error .other
  else lines.mapM (fun l => match words l with
    | [] => .error .other
    | w :: _ => .ok (strip w))

end Verif.FastTable
