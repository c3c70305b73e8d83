import Verif.Model.FastLine
/-!
# External platform files — `/repo/weio/fast_input_file.py:1657-1724` (`detectAndReadExtPtfmSE`),
`:1729-1815` (`ExtPtfmFile`)

Simplifications: numbers, their printing and their parsing are the parameter `Num`; matrices are
lists of rows; integers are read without sign, underscore or other decimal digits than ASCII;
`lower` is for ASCII letters.
-/
namespace Verif.ExtPtfm
open Verif.Py Verif.FastLine

/-- the exceptions raised -/
inductive Err where
  | index | value | broken | assert_
deriving Repr, DecidableEq

/-- numbers -/
structure Num (F : Type) where
  /-- `float(s)`; `none`: `ValueError` -/
  parse : Str → Option F
  /-- `'{:16.8e}'.format(x)` -/
  e8 : F → Str
  /-- `'{}'.format(x)` -/
  repr : F → Str
  /-- `int(T/dt)+1`; `none`: an exception -/
  steps : F → F → Option Nat

/-- the object: the items `nDOF`, `dt`, `T`, `MassMatrix`, `StiffnessMatrix`, `DampingMatrix`, `Loading` -/
structure Obj (F : Type) where
  nDOF : Nat
  dt : F
  T : F
  mass : List (List F)
  stiff : List (List F)
  damp : List (List F)
  load : List (List F)
deriving Repr, DecidableEq

/-! ### writing -/

/-- `''.join('{:16.8e}'.format(x) for x in y)` (1767, 1771, 1775, 1779) -/
def rowText (N : Num F) (y : List F) : Str := y.flatMap N.e8

/-- the lines of `'\n'.join(...)` of the rows: none gives the empty text -/
def matLines (N : Num F) (m : List (List F)) : List Str :=
  match m with
  | [] => [[]]
  | m => m.map (rowText N)

/-- the text of a natural number, `'{}'.format(n)` -/
def natText (n : Nat) : Str := Nat.toDigits 10 n

/-- the lines of `toString` (1756-1779) -/
def toLines (N : Num F) (o : Obj F) : List Str :=
  ["!Comment".toList, "!Comment Flex 5 Format".toList, "!Dimension: ".toList ++ natText o.nDOF,
   "!Time increment in simulation: ".toList ++ N.repr o.dt,
   "!Total simulation time in file: ".toList ++ N.repr o.T] ++
  ([[], "!Mass Matrix".toList, "!Dimension: ".toList ++ natText o.nDOF] ++ matLines N o.mass) ++
  ([[], "!Stiffness Matrix".toList, "!Dimension: ".toList ++ natText o.nDOF] ++ matLines N o.stiff) ++
  ([[], "!Damping Matrix".toList, "!Dimension: ".toList ++ natText o.nDOF] ++ matLines N o.damp) ++
  ([[], "!Loading and Wave Elevation".toList,
    "!Dimension: 1 time column -  ".toList ++ natText o.nDOF ++ " force columns".toList] ++ matLines N o.load)

/-- `toString` (1756-1779): all lines but the last are followed by `\n` -/
def toText (N : Num F) (o : Obj F) : Str := joinWith ['\n'] (toLines N o)

/-- a square matrix of `n` rows (1783-1788) -/
def square (n : Nat) (m : List (List F)) : Bool := m.length == n && m.all (fun r => r.length == m.length)

/-- `_writeSanityChecks` (1781-1790); nothing is checked on `Loading` -/
def sane (o : Obj F) : Bool := square o.nDOF o.mass && square o.nDOF o.stiff && square o.nDOF o.damp

/-- `write` (736-751): the checks, then the text -/
def write (N : Num F) (o : Obj F) : Except Err Str :=
  if sane o then .ok (toText N o) else .error .assert_

/-! ### reading -/

/-- items found so far; `nDOFCommon` (1678) is `nDOF`, `none` standing for -1 -/
structure St (F : Type) where
  nDOF : Option Nat := none
  dt : Option F := none
  T : Option F := none
  mass : Option (List (List F)) := none
  stiff : Option (List (List F)) := none
  damp : Option (List (List F)) := none
  load : Option (List (List F)) := none
deriving Repr, DecidableEq

/-- `np.array(l.split()).astype(float)` (1663) -/
def parseRow (N : Num F) (l : Str) : Except Err (List F) :=
  (words l).foldr (fun w acc =>
    match N.parse w, acc with
    | some x, .ok r => .ok (x :: r)
    | _, _ => .error .value) (.ok [])

/-- `M[j,:]=…` (1663): a row of one number fills the whole row -/
def fitRow (m : Nat) (r : List F) : Except Err (List F) :=
  if r.length = m then .ok r
  else match r with
    | [x] => .ok (List.replicate m x)
    | _ => .error .value

/-- `readmat` (1659-1664) from the lines that remain -/
def readmat (N : Num F) (m : Nat) : Nat → List Str → Except Err (List (List F))
  | 0, _ => .ok []
  | _ + 1, [] => .error .index
  | n + 1, l :: ls =>
    match parseRow N l with
    | .error e => .error e
    | .ok r =>
      match fitRow m r with
      | .error e => .error e
      | .ok r =>
        match readmat N m n ls with
        | .error e => .error e
        | .ok rs => .ok (r :: rs)

/-- `l.split(':')[1]` -/
def afterColon (l : Str) : Except Err Str :=
  match (splitOn ':' l)[1]? with
  | some s => .ok s
  | none => .error .index

/-- `int(s)` of a text -/
def parseNat (s : Str) : Except Err Nat :=
  if strip s ≠ [] ∧ (strip s).all Char.isDigit then .ok (Nat.ofDigitChars 10 (strip s) 0) else .error .value

/-- a matrix section (1684-1704): the line after the title gives `nDOF`, which has to be the common one,
then the rows.  `tl` are the lines after the title; the lines left are returned with the matrix. -/
def section_ (N : Num F) (st : St F) (tl : List Str) : Except Err (List (List F) × List Str) :=
  match tl with
  | [] => .error .index
  | d :: body =>
    match afterColon d with
    | .error e => .error e
    | .ok s =>
      match parseNat s with
      | .error e => .error e
      | .ok n =>
        if st.nDOF ≠ some n then .error .broken
        else match readmat N n n body with
          | .error e => .error e
          | .ok m => .ok (m, body.drop n)

/-- the loading section (1705-1711) -/
def loading (N : Num F) (st : St F) (tl : List Str) : Except Err (List (List F) × List Str) :=
  match st.T, st.dt with
  | some T, some dt =>
    match N.steps T dt with
    | none => .error .broken
    | some nt =>
      match readmat N (match st.nDOF with | some n => n + 1 | none => 0) nt (tl.drop 1) with
      | .error e => .error e
      | .ok m => .ok (m, (tl.drop 1).drop nt)
  | _, _ => .error .broken

/-- the other lines (1712-1722); `l` is the line in lower case -/
def other (N : Num F) (st : St F) (l : Str) : Except Err (St F) :=
  match l with
  | [] => .ok st
  | c :: _ =>
    if c = '!' then
      if startsWith l "!dimension".toList then
        match afterColon l with
        | .error e => .error e
        | .ok s =>
          match parseNat s with
          | .error e => .error e
          | .ok n => .ok { st with nDOF := some n }
      else if startsWith l "!time increment".toList then
        match afterColon l with
        | .error e => .error e
        | .ok s =>
          match N.parse s with
          | none => .error .value
          | some x => .ok { st with dt := some x }
      else if startsWith l "!total simulation time".toList then
        match afterColon l with
        | .error e => .error e
        | .ok s =>
          match N.parse s with
          | none => .error .value
          | some x => .ok { st with T := some x }
      else .ok st
    else if strip l = [] then .ok st
    else .error .broken

/-- go on with what a section gives, unless it raised -/
def andThen (r : Except Err (List (List F) × List Str)) (f : List (List F) → List Str → Except Err (St F)) :
    Except Err (St F) :=
  match r with
  | .error e => .error e
  | .ok p => f p.1 p.2

/-- the loop 1681-1723; the fuel is the number of lines -/
def loop (N : Num F) : Nat → St F → List Str → Except Err (St F)
  | 0, st, _ => .ok st
  | _ + 1, st, [] => .ok st
  | k + 1, st, l0 :: tl =>
    if startsWith (lower l0) "!mass".toList then
      andThen (section_ N st tl) fun m rest => loop N k { st with mass := some m } rest
    else if startsWith (lower l0) "!stiffness".toList then
      andThen (section_ N st tl) fun m rest => loop N k { st with stiff := some m } rest
    else if startsWith (lower l0) "!damping".toList then
      andThen (section_ N st tl) fun m rest => loop N k { st with damp := some m } rest
    else if startsWith (lower l0) "!loading".toList then
      andThen (loading N st tl) fun m rest => loop N k { st with load := some m } rest
    else
      match other N st (lower l0) with
      | .error e => .error e
      | .ok st => loop N k st tl

/-- the test 1666-1674: is it such a file?  `lines[0][0]` of an empty line is `IndexError`; the second
line is only looked at when the first starts with `!`. -/
def isExtPtfm (lines : List Str) : Except Err Bool :=
  if lines.length < 10 then .ok false
  else match lines with
    | (c :: _) :: l1 :: l2 :: _ =>
      if c ≠ '!' then .ok false
      else match l1 with
        | [] => .error .index
        | c1 :: _ =>
          if c1 ≠ '!' then .ok false
          else .ok ((find "flex".toList (lower l1)).isSome && (find "!dimension".toList (lower l2)).isSome)
    | _ => .error .index

/-- `ExtPtfmFile._read` (1751-1754) into a new object: a file of another kind gives no item -/
def read (N : Num F) (text : Str) : Except Err (St F) :=
  match isExtPtfm (splitlines text) with
  | .error e => .error e
  | .ok false => .ok {}
  | .ok true => loop N (splitlines text).length {} ((splitlines text).drop 2)

end Verif.ExtPtfm
