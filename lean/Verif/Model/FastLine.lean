import Verif.Py.Str
import Verif.Model.FastDict
/-!
# Lines of an OpenFAST input file — `/repo/weio/fast_input_file.py`

`parseFASTInputLine` (1004-1106), `toString` (653-734) for entries that are not
tables, and the main loop of `_read` (309-650) for files made of key/value lines
and comments.

Simplifications
* Python floats: a type `F` with `float(s)` (`parse`, `none` = ValueError) and
  `repr` given by a `PyFloat`; the laws used by the proofs are `PyFloat.Lawful`.
* `str.isdigit`, `str.lower`, `str.upper`: ASCII only.
* Files that enter a table, a section or a special file format give the result
  `unmodelled`.
-/
namespace Verif.FastLine
open Verif.Py Verif.FastDict

/-- Python floats: `float(s)` and `repr(x)`. -/
structure PyFloat where
  F : Type
  parse : Str → Option F
  repr : F → Str

/-- scalar values produced by the parser (1056-1066). -/
inductive Val (F : Type) where
  | int (n : Int)
  | flt (x : F)
  | bool (b : Bool)
  | str (s : Str)

/-- `d['value']`: a scalar or a list (1044-1052). -/
inductive EVal (F : Type) where
  | scalar (v : Val F)
  | list (vs : List (Val F))

/-- exceptions; `unmodelled` marks inputs handled by code outside of the model. -/
inductive Err where
  | wrongFormat
  | other
  | unmodelled
deriving DecidableEq, Repr

/-- `strIsFloat` (950-956). -/
def strIsFloat (P : PyFloat) (s : Str) : Bool := (P.parse s).isSome

/-- `strIsBool` (958-959). -/
def strIsBool (s : Str) : Bool :=
  lower s == "true".toList || lower s == "false".toList || lower s == "t".toList || lower s == "f".toList

/-- `str.isdigit` (ASCII). -/
def isDigits (s : Str) : Bool := !s.isEmpty && s.all Char.isDigit

/-- `strIsInt` (961-965).  On `''` the code raises IndexError; it is never
called on `''`: every caller passes a word or a float/bool text. -/
def strIsInt : Str → Bool
  | [] => false
  | c :: r => if c = '-' ∨ c = '+' then isDigits r else isDigits (c :: r)

/-- `strToBool` (967-968). -/
def strToBool (s : Str) : Bool := lower s == "true".toList || lower s == "t".toList

/-- `int(s)` on texts accepted by `strIsInt`. -/
def pyInt : Str → Int
  | [] => 0
  | c :: r =>
    if c = '-' then -(Nat.ofDigitChars 10 r 0 : Int)
    else if c = '+' then (Nat.ofDigitChars 10 r 0 : Int)
    else (Nat.ofDigitChars 10 (c :: r) 0 : Int)

/-- `cleanLine` (975-980). -/
def cleanLine (l : Str) : Str :=
  strip (joinWith [' '] (words (replaceChar '\t' [' '] l)))

/-- the value of a text that is a number or a logical, inside a list (1030-1037). -/
def listItem (P : PyFloat) (s : Str) : Val P.F :=
  if strIsInt s then .int (pyInt s)
  else match P.parse s with
    | some x => .flt x
    | none => .bool (strToBool s)

/-- the `while` loop of 1029-1041: reads items while they are numbers or
logicals; running past the last split is a WrongFormatError.  Returns the values
and the texts read. -/
def takeList (P : PyFloat) : List Str → Except Err (List (Val P.F) × List Str)
  | [] => .error .wrongFormat
  | s :: rest =>
    if strIsFloat P s || strIsBool s then
      match takeList P rest with
      | .ok (vs, ts) => .ok (listItem P s :: vs, s :: ts)
      | .error e => .error e
    else .ok ([], [])

/-- `re.sub(',+', ',', s)` (1024). -/
def collapseCommas : Str → Str
  | [] => []
  | c :: s =>
    if c = ',' then (match s with
      | d :: _ => if d = ',' then collapseCommas s else ',' :: collapseCommas s
      | [] => [','])
    else c :: collapseCommas s

/-- `csplits` (1023-1025). -/
def csplits (line : Str) : List Str := splitOn ',' (collapseCommas (replaceChar ' ' [','] line))

/-- one step of the loop 1048-1051; `find` returning -1 gives `rem[len-1:]`. -/
def eatOne (rem : Str) (t : Str) : Str :=
  match find t rem with
  | some i => rem.drop (i + t.length)
  | none => rem.drop (t.length - 1)

/-- `_merge_value` (993-999) after the first `pop`: `merged` and the remaining
splits; popping from an empty list is an IndexError. -/
def mergeTail (merged : Str) : List Str → Except Err (Str × List Str)
  | [] => if merged.getLast? = some '"' then .ok (merged, []) else .error .other
  | w :: r =>
    if merged.getLast? = some '"' then .ok (merged, w :: r)
    else mergeTail (merged ++ ' ' :: w) r

/-- `_merge_value` (993-999). -/
def mergeValue : List Str → Except Err (Str × List Str)
  | [] => .error .other
  | w :: r => if w.head? = some '"' then mergeTail w r else .ok (w, r)

/-- 1056-1066: the value of the first split. -/
def scalarOf (P : PyFloat) (allow : Bool) (s : Str) (rest : List Str) : Val P.F :=
  if strIsInt s then
    match rest with
    | [] => .int (pyInt s)
    | r :: _ => if allow && strIsInt r then .str (s ++ ' ' :: r) else .int (pyInt s)
  else match P.parse s with
    | some x => .flt x
    | none => if strIsBool s then .bool (strToBool s) else .str s

/-- `splits[iNext][0]=='!' and splits[iNext][-1]==':'` (1073). -/
def bangColon (w : Str) : Bool := w.head? == some '!' && w.getLast? == some ':'

/-- the label loop (1070-1090): `none` when no label is found. -/
def findLabel (P : PyFloat) : List Str → Option (Str × List Str)
  | [] => none
  | [w] => if bangColon w then none else if strIsFloat P w then none else some (w, [])
  | w :: x :: r =>
    if bangColon w then findLabel P r
    else if strIsFloat P w then findLabel P (x :: r)
    else some (w, x :: r)

/-- the tests of line 1011 on a cleaned line. -/
def isCommentText (line : Str) : Bool :=
  startsWith line "#".toList || startsWith line "!".toList || startsWith line "--".toList
    || startsWith line "==".toList || line.isEmpty

/-- lines 1015-1019: `END of ...`. -/
def isEndOf (line : Str) : Bool :=
  startsWith (lower line) "end".toList
    && (decide ((words line).length > 2) && (words line)[1]? == some "of".toList)

/-- 1021-1042: the list detection. -/
def listPart (P : PyFloat) (line : Str) : Except Err (List (Val P.F) × List Str) :=
  match find [','] line with
  | some i => if 0 < i ∧ i < 30 then takeList P (csplits line) else .ok ([], [])
  | none => .ok ([], [])

/-- 1043-1067: value and the splits that follow it. -/
def valueAndSplits (P : PyFloat) (allow : Bool) (line : Str) (vs : List (Val P.F)) (ts : List Str) :
    Except Err (EVal P.F × List Str) :=
  if 2 ≤ vs.length then .ok (.list vs, words (ts.foldl eatOne line))
  else match mergeValue (splitOn ' ' line) with
    | .ok (m, r) => .ok (.scalar (scalarOf P allow m r), r)
    | .error e => .error e

/-- `parseFASTInputLine` (1004-1106). -/
def parseLine (P : PyFloat) (allow : Bool) (raw : Str) : Except Err (Entry (EVal P.F)) :=
  let line := cleanLine raw
  if isCommentText line then
    .ok ⟨[], .scalar (.str raw), true, [], 0⟩
  else
    match listPart P line with
    | .error e => .error e
    | .ok (vs, ts) =>
      match valueAndSplits P allow line vs ts with
      | .error e => .error e
      | .ok (v, splits) =>
        match findLabel P splits with
        | some (lab, r) => .ok ⟨strip lab, v, isEndOf line, joinWith [' '] r, 0⟩
        | none => .ok ⟨[], .scalar (.str raw), true, [], 0⟩

/-! ### writing (653-734) -/

/-- decimal text of an `int`. -/
def showInt : Int → Str
  | .ofNat n => Nat.toDigits 10 n
  | .negSucc n => '-' :: Nat.toDigits 10 (n + 1)

/-- `str(x)` / `'{}'.format(x)`. -/
def showVal (P : PyFloat) : Val P.F → Str
  | .int n => showInt n
  | .flt x => P.repr x
  | .bool true => "True".toList
  | .bool false => "False".toList
  | .str s => s

/-- `'{:13s}'.format(s)`. -/
def pad13 (s : Str) : Str := s ++ List.replicate (13 - s.length) ' '

/-- `descr.strip().strip('-').strip()` (663). -/
def descrText (d : Str) : Str := strip (stripBy (· == '-') (strip d))

/-- `toStringVLD` (656-663). -/
def toStringVLD (P : PyFloat) (v : Val P.F) (lab descr : Str) : Str :=
  pad13 (showVal P v) ++ [' '] ++ pad13 lab ++ " - ".toList ++ descrText descr ++ ['\n']

/-- one entry of `toString` that is not a table (682-689).  A comment whose
value is a list would print the list; the parser never produces one. -/
def entryText (P : PyFloat) (d : Entry (EVal P.F)) : Str :=
  if d.isComment then
    match d.value with
    | .scalar v => showVal P v
    | .list vs => joinWith ", ".toList (vs.map (showVal P))
  else
    match d.value with
    | .list vs =>
      joinWith ", ".toList (vs.map (showVal P)) ++ [' '] ++ d.label ++ [' '] ++ d.descr
    | .scalar v => strip (toStringVLD P v d.label d.descr)

/-- `toString` (681-734) for a file without tables. -/
def fileText (P : PyFloat) (data : List (Entry (EVal P.F))) : Str :=
  joinWith ['\n'] (data.map (entryText P))

/-! ### reading (309-650) -/

/-- characters ending a line for `str.splitlines()`. -/
def isLineBreak (c : Char) : Bool :=
  let n := c.toNat
  (10 ≤ n && n ≤ 13) || (28 ≤ n && n ≤ 30) || n == 0x85 || n == 0x2028 || n == 0x2029

/-- `str.splitlines()`; `cr` is true just after a carriage return, whose
following newline belongs to the same line break. -/
def splitlinesAux (acc : Str) (cr : Bool) : Str → List Str
  | [] => if acc = [] then [] else [acc]
  | c :: s =>
    if c = '\n' ∧ cr = true then splitlinesAux [] false s
    else if isLineBreak c then acc :: splitlinesAux [] (c == '\r') s
    else splitlinesAux (acc ++ [c]) false s

/-- `str.splitlines()`. -/
def splitlines (s : Str) : List Str := splitlinesAux [] false s

/-- `str.upper()` (ASCII). -/
def upper (s : Str) : Str := s.map Char.toUpper

/-- `line.upper().find(key) > 0`. -/
def hasInside (line key : Str) : Bool :=
  match find key (upper line) with
  | some i => decide (0 < i)
  | none => false

/-- lines opening a special section (390-392, 421, 436, 451). -/
def isSection (line : Str) : Bool :=
  hasInside line "ADDITIONAL OUTPUTS".toList || hasInside line "MESH-BASED OUTPUTS".toList
  || hasInside line "OUTPUT CHANNELS".toList || hasInside line "SSOUTLIST".toList
  || hasInside line "SDOUTLIST".toList || hasInside line "ADDITIONAL STIFFNESS".toList
  || hasInside line "DISTRIBUTED PROPERTIES".toList

/-- `NUMTAB_FROM_VAL_DETECT_L` (313, 319, 354), lower case. -/
def tabValues : List Str :=
  ["htfract", "twrelev", "blfract", "genspd_tlu", "blspn", "wndspeed", "hvcoefid", "axcoefid",
   "jointid", "dpth", "fillnumm", "mgdpth", "simplcd", "rnodes", "kp_xr", "mu1", "twrhtfr", "twrre",
   "wt_x", "rjointid", "ijointid", "cosmid", "cmjointid"].map String.toList

/-- labels starting a table or a file list (328, 335, 342, 349), and the labels
`numcoords` and `re` with a special treatment (468, 506), lower case. -/
def tabLabels : List Str :=
  ["numalf", "f_x", "membercd1", "mjointid1", "noutloc", "noutcnt", "propd", "diam", "type",
   "linetype", "guyandampsize", "younge", "ea", "matdens", "gridname", "foilnm", "afnames",
   "numcoords", "re"].map String.toList

/-- entries handled by code outside of the model (468-609). -/
def isTable (P : PyFloat) (d : Entry (EVal P.F)) : Bool :=
  tabLabels.contains (lower d.label) ||
  (match d.value with
   | .scalar (.str s) => tabValues.contains (lower s)
   | _ => false)

/-- `hasSpecialChars` (970-973). -/
def hasSpecialChars (s : Str) : Bool :=
  !(s.all (fun c => c.isAlphanum || c == '"' || c == '\'' || c == '_' || c == '(' || c == ')' || c == '-'))

/-- the state of the loop 379-636. -/
structure RState (F : Type) where
  data : List (Entry (EVal F)) := []
  i : Nat := 0
  nComments : Nat := 0
  nWrongLabels : Nat := 0
  allow : Bool := false

/-- one iteration of the loop (386-636) on the line `line` of a file of `n`
lines.  `0.35` and `0.10` are exact here. -/
def step (P : PyFloat) (n : Nat) (s : RState P.F) (line : Str) : Except Err (RState P.F) :=
  if isSection line then .error .unmodelled
  else match parseLine P s.allow line with
    | .error e => .error e
    | .ok d =>
      if isTable P d then .error .unmodelled
      else
        let allow := if lower d.label = "kp_total".toList then true else s.allow
        let i := s.i + 1
        let nC := if d.isComment then s.nComments + 1 else s.nComments
        let special := !d.isComment && hasSpecialChars d.label
        let nW := s.nWrongLabels + (if special then 1 else 0)
          + (if !d.isComment && d.label.isEmpty then 1 else 0)
        if special && decide (3 < i) then .error .wrongFormat
        else if 100 * nC > 35 * n then .error .wrongFormat
        else if 10 * nW > n then .error .wrongFormat
        else .ok ⟨s.data ++ [d], i, nC, nW, allow⟩

/-- `self.detectAndReadAirfoilAD14` (840-861), detection only; a negative table
count is out of the model. -/
def isAD14 (lines : List Str) : Bool :=
  if lines.length < 14 then false
  else match words (lines.getD 2 []) with
    | [] => false
    | w :: _ =>
      if !strIsInt w then false
      else
        let nT := pyInt w
        if nT < 0 then true
        else if (words (lines.getD 3 [])).length ≤ nT.toNat then false
        else
          match (words (lines.getD 12 []))[nT.toNat]?, (words (lines.getD 13 []))[nT.toNat]? with
          | some a, some b => lower a == "angle".toList && lower b == "minimum".toList
          | _, _ => false

/-- `detectAndReadExtPtfmSE` (1657-1672), detection only: `lines[0][0]` on an
empty first line is an IndexError. -/
def isExtPtfm (lines : List Str) : Except Err Bool :=
  if lines.length < 10 then .ok false
  else match (lines.getD 0 []).head? with
    | none => .error .other
    | some c =>
      if c ≠ '!' then .ok false
      else match (lines.getD 1 []).head? with
        | none => .error .other
        | some c1 =>
          if c1 ≠ '!' then .ok false
          else if find "flex".toList (lower (lines.getD 1 [])) = none then .ok false
          else if find "!dimension".toList (lower (lines.getD 2 [])) = none then .ok false
          else .ok true

/-- `_read` (309-650) on the lines of the file. -/
def readLines (P : PyFloat) (lines : List Str) : Except Err (List (Entry (EVal P.F))) :=
  match isExtPtfm lines with
  | .error e => .error e
  | .ok true => .error .unmodelled
  | .ok false =>
    if isAD14 lines then .error .unmodelled
    else match lines.foldlM (step P lines.length) ({} : RState P.F) with
      | .ok s => .ok s.data
      | .error e => .error e

/-- `_read` on the text of the file (`f.read().splitlines()`, 364). -/
def readText (P : PyFloat) (text : Str) : Except Err (List (Entry (EVal P.F))) :=
  readLines P (splitlines text)

/-! ### channel lists (1108-1121) -/

/-- `parseFASTOutList` (1108-1121) on the lines following the header; returns
the channel lines (the returned index is `iStart + len`).  `n` is `i - iStart`.
Reaching the end of the file only prints a warning (1118-1119). -/
def parseOutList (n : Nat) : List Str → Except Err (List Str)
  | [] => .ok []
  | l :: ls =>
    if startsWith (upper l) "END".toList then .ok []
    else if n + 1 > 200 then .error .other
    else match parseOutList (n + 1) ls with
      | .ok r => .ok (l :: r)
      | .error e => .error e

/-- `TABTYPE_FIL` entries (715-718): the lines written for an entry whose value
is `v0 :: rest`.  (`'{} {} {}\n'.format(v0,label,descr)` then the lines joined
by newlines.) -/
def filText (v0 label descr : Str) (rest : List Str) : Str :=
  v0 ++ [' '] ++ label ++ [' '] ++ descr ++ ['\n'] ++ joinWith ['\n'] rest

end Verif.FastLine
