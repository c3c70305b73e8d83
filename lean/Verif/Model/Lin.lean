import Verif.Model.FastLine
/-!
# OpenFAST linearization files — `/repo/weio/fast_linearization_file.py`

`FASTLinearizationFile._read` (44-149) and `_toDataFrame` (321-352).

Simplifications
* floats: `float(s)` is a parameter `parse`;
* `int(s)`: an optional sign and ASCII digits (`strIsInt`), any other text is a ValueError;
* the lines of the file are those given by the file iterator; reading past the end gives `''`
  with `readline` and stops a `for` loop;
* `np.array(vals).astype(float)` is a list of rows; rows of different lengths or a text that is
  not a number: ValueError; no check of the number of columns is made by the code;
* keys of the dictionary that are not read are `none`, each is set by the last section of its
  kind; keys of an earlier read of the same object are not modelled.
-/
namespace Verif.Lin
open Verif.Py Verif.FastLine

/-- exceptions: `BrokenFormatError`, `TypeError` (`int(None)`), `ValueError`, `IndexError`,
`UnboundLocalError` (no line at all) -/
inductive LErr where
  | broken | type | value | index | unbound
deriving DecidableEq, Repr

/-- `line.find(key)>=0` -/
def has (key line : Str) : Bool := (find key line).isSome

/-- `l.split(key)[1]` for a line containing `key` (50): the text up to the next occurrence -/
def afterKey (key l : Str) : Str :=
  match find key l with
  | none => []
  | some i =>
    let r := l.drop (i + key.length)
    match find key r with
    | none => r
    | some j => r.take j

/-- `extractVal` (47-51): `none` is `None` -/
def extractVal : List Str → Str → Except LErr (Option Str)
  | [], _ => .ok none
  | l :: ls, key =>
    if has key l then
      match words (afterKey key l) with
      | [] => .error .index
      | w :: _ => .ok (some w)
    else extractVal ls key

/-- `readToMarker` (53-61), at line `i`: the lines before the marker, the marker line and the lines
after it.  When the file ends, `line` is still the last line. -/
def readToMarker (marker : Str) (nMax : Nat) : Nat → Option Str → List Str → Except LErr (List Str × Str × List Str)
  | _, none, [] => .error .unbound
  | _, some last, [] => .ok ([], last, [])
  | i, _, l :: ls =>
    if i > nMax then .error .broken
    else if has marker l then .ok ([], l, ls)
    else match readToMarker marker nMax (i + 1) (some l) ls with
      | .error e => .error e
      | .ok (pre, last, rest) => .ok (strip l :: pre, last, rest)

/-- `int(x)` -/
def toInt : Option Str → Except LErr Int
  | none => .error .type
  | some w => if strIsInt w then .ok (pyInt w) else .error .value

/-- `int(extractVal(header, key))` (102-106) -/
def count (header : List Str) (key : Str) : Except LErr Int :=
  match extractVal header key with
  | .error e => .error e
  | .ok v => toInt v

/-- `try: float(extractVal(…)) except: None` (108-119) -/
def optFloat {F : Type} (parse : Str → Option F) (header : List Str) (key : Str) : Option F :=
  match extractVal header key with
  | .error _ => none
  | .ok none => none
  | .ok (some w) => parse w

/-- one operating point: value, frame, derivative order, description -/
structure OpRow (F : Type) where
  value : F
  frame : Str
  order : Int
  descr : Str

/-- one line of `readOP` (70-85) -/
def opLine {F : Type} (parse : Str → Option F) (deriv : Bool) (line : Str) : Except LErr (OpRow F) :=
  let sp := words line
  match sp[1]? with
  | none => .error .index
  | some v =>
    let comma := has [','] v
    let iRot := if comma then 4 else 2
    match parse (if comma then v.dropLast else v) with
    | none => .error .value
    | some x =>
      match sp[iRot]? with
      | none => .error .index
      | some r =>
        if deriv then
          match sp[iRot + 1]? with
          | none => .error .index
          | some o =>
            if strIsInt o then .ok ⟨x, r, pyInt o, strip (joinWith [' '] (sp.drop (iRot + 2)))⟩
            else .error .value
        else .ok ⟨x, r, -1, strip (joinWith [' '] (sp.drop (iRot + 1)))⟩

/-- the loop of `readOP` (69-87); at least one line is read, if there is one; `n` lines are left -/
def opRows {F : Type} (parse : Str → Option F) (deriv : Bool) : Nat → List Str → Except LErr (List (OpRow F) × List Str)
  | _, [] => .ok ([], [])
  | n, l :: ls =>
    match opLine parse deriv l with
    | .error e => .error e
    | .ok r =>
      if n ≤ 1 then .ok ([r], ls)
      else match opRows parse deriv (n - 1) ls with
        | .error e => .error e
        | .ok (rs, rest) => .ok (r :: rs, rest)

/-- `readOP` (63-88): two lines of column titles, then the rows -/
def readOP {F : Type} (parse : Str → Option F) (n : Int) (lines : List Str) : Except LErr (List (OpRow F) × List Str) :=
  opRows parse (has "Derivative Order".toList (strip (lines.getD 0 []))) n.toNat (lines.drop 2)

/-- `n` calls of `readline` -/
def readLinesN (n : Nat) (lines : List Str) : List Str := (List.range n).map (fun i => lines.getD i [])

/-- `readMat` (90-93) -/
def readMat {F : Type} (parse : Str → Option F) (n : Int) (lines : List Str) : Except LErr (List (List F) × List Str) :=
  let vals := (readLinesN n.toNat lines).map words
  if vals.all (fun r => r.length == (vals.headD []).length) then
    match vals.mapM (fun r => r.mapM parse) with
    | none => .error .value
    | some m => .ok (m, lines.drop n.toNat)
  else .error .value

/-- the dictionary (`_info` lists are kept with their values) -/
structure Data (F : Type) where
  header : List Str
  azimuth : Option F
  rotSpeed : Option F
  windSpeed : Option F
  x : Option (List (OpRow F)) := none
  xdot : Option (List (OpRow F)) := none
  u : Option (List (OpRow F)) := none
  y : Option (List (OpRow F)) := none
  A : Option (List (List F)) := none
  B : Option (List (List F)) := none
  C : Option (List (List F)) := none
  D : Option (List (List F)) := none
  dUdu : Option (List (List F)) := none
  dUdy : Option (List (List F)) := none
  eddof : Option (List Str) := none
  M : Option (List (List F)) := none

/-- the numbers of states, inputs and outputs -/
structure Sizes where
  nx : Int
  nu : Int
  ny : Int

/-- `KEYS` (121) -/
def keys : List Str :=
  ["Order of", "A:", "B:", "C:", "D:", "ED M:", "dUdu", "dUdy"].map String.toList

/-- one iteration (123-149) on the line `l`, followed by `rest` -/
def section_ {F : Type} (parse : Str → Option F) (z : Sizes) (d : Data F) (l : Str) (rest : List Str) :
    Except LErr (Data F × List Str) :=
  let line := strip l
  if !(keys.any (fun k => has k line)) then .ok (d, rest)
  else if has "Order of continuous states:".toList line then
    (readOP parse z.nx rest).map (fun r => ({ d with x := some r.1 }, r.2))
  else if has "Order of continuous state derivatives:".toList line then
    (readOP parse z.nx rest).map (fun r => ({ d with xdot := some r.1 }, r.2))
  else if has "Order of inputs".toList line then
    (readOP parse z.nu rest).map (fun r => ({ d with u := some r.1 }, r.2))
  else if has "Order of outputs".toList line then
    (readOP parse z.ny rest).map (fun r => ({ d with y := some r.1 }, r.2))
  else if has "A:".toList line then
    (readMat parse z.nx rest).map (fun r => ({ d with A := some r.1 }, r.2))
  else if has "B:".toList line then
    (readMat parse z.nx rest).map (fun r => ({ d with B := some r.1 }, r.2))
  else if has "C:".toList line then
    (readMat parse z.ny rest).map (fun r => ({ d with C := some r.1 }, r.2))
  else if has "D:".toList line then
    (readMat parse z.ny rest).map (fun r => ({ d with D := some r.1 }, r.2))
  else if has "dUdu:".toList line then
    (readMat parse z.nu rest).map (fun r => ({ d with dUdu := some r.1 }, r.2))
  else if has "dUdy:".toList line then
    (readMat parse z.nu rest).map (fun r => ({ d with dUdy := some r.1 }, r.2))
  else if has "ED M:".toList line then
    (readMat parse 24 rest).map (fun r =>
      ({ d with eddof := some (words (line.drop 5)), M := some r.1 }, r.2))
  else .ok (d, rest)

/-- the loop (123-149): `fuel` bounds the number of iterations, one per line is enough -/
def loop {F : Type} (parse : Str → Option F) (z : Sizes) : Nat → Data F → List Str → Except LErr (Data F)
  | _, d, [] => .ok d
  | 0, d, _ :: _ => .ok d
  | fuel + 1, d, l :: ls =>
    match section_ parse z d l ls with
    | .error e => .error e
    | .ok (d, rest) => loop parse z fuel d rest

/-- `_read` (44-149) -/
def read {F : Type} (parse : Str → Option F) (lines : List Str) : Except LErr (Data F) :=
  match readToMarker "Jacobians included".toList 30 0 none lines with
  | .error e => .error e
  | .ok (pre, last, rest) =>
    let header := pre ++ [last]
    match count header "Number of continuous states:".toList with
    | .error e => .error e
    | .ok nx =>
      match count header "Number of discrete states:".toList with
      | .error e => .error e
      | .ok _ =>
        match count header "Number of constraint states:".toList with
        | .error e => .error e
        | .ok _ =>
          match count header "Number of inputs:".toList with
          | .error e => .error e
          | .ok nu =>
            match count header "Number of outputs:".toList with
            | .error e => .error e
            | .ok ny =>
              match extractVal header "Jacobians included in this file?".toList with
              | .error e => .error e
              | .ok _ =>
                loop parse ⟨nx, nu, ny⟩ rest.length
                  { header := header,
                    azimuth := optFloat parse header "Azimuth:".toList,
                    rotSpeed := optFloat parse header "Rotor Speed:".toList,
                    windSpeed := optFloat parse header "Wind Speed:".toList } rest

end Verif.Lin
