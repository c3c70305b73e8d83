import Verif.Model.Lin
/-!
# ROSCO performance files — `/repo/weio/rosco_performance_file.py`

`load_from_txt` (118-173), `write_rotor_performance` (176-229), `_read`, `_write`, `toDataFrame`
(70-93).

Simplifications
* `float(s)` is a parameter `parse`; the texts printed by `'{:0.4}'`, `'{:.6f}'`, `'{:.2f}'` are
  parameters;
* the lines of the file are those given by the file iterator; `readline` at the end gives `''`;
* a row of a table is assigned to a row of `np.empty((nTSR, nPitch))`: numpy takes a row of the
  right length, repeats a row of one number, and refuses any other (ValueError).
-/
namespace Verif.Rosco
open Verif.Py Verif.FastLine
open Verif.Lin (has)

/-- exceptions: `WrongFormatError`, `ValueError`, `TypeError` (`len(None)`), `UnboundLocalError`,
`NameError` -/
inductive RErr where
  | wrong | value | type | unbound | name
deriving DecidableEq, Repr

/-- the local variables of `load_from_txt` (129-131, 154-168); `none` for `None` or not assigned -/
structure Perf (F : Type) where
  pitch : Option (List F) := none
  tsr : Option (List F) := none
  ws : Option (List F) := none
  cp : Option (List (List F)) := none
  ct : Option (List (List F)) := none
  cq : Option (List (List F)) := none
deriving DecidableEq

/-- `[float(x) for x in pfile.readline().strip().split()]` (137); `none` is a ValueError -/
def vector {F : Type} (parse : Str → Option F) (l : Str) : Option (List F) := (words (strip l)).mapM parse

/-- assignment of a row of numbers to a row of `n` entries (154) -/
def fitRow {F : Type} (n : Nat) (r : List F) : Option (List F) :=
  if r.length = n then some r
  else match r with
    | [x] => some (List.replicate n x)
    | _ => none

/-- the loop over the rows (153-154): rows and remaining lines -/
def rowsN {F : Type} (parse : Str → Option F) (nPitch : Nat) : Nat → List Str → Except RErr (List (List F) × List Str)
  | 0, ls => .ok ([], ls)
  | n + 1, ls =>
    match (vector parse (ls.headD [])).bind (fitRow nPitch) with
    | none => .error .value
    | some r =>
      match rowsN parse nPitch n ls.tail with
      | .error e => .error e
      | .ok (rs, rest) => .ok (r :: rs, rest)

/-- a table of coefficients (151-154): one line is skipped -/
def table {F : Type} (parse : Str → Option F) (d : Perf F) (rest : List Str) : Except RErr (List (List F) × List Str) :=
  match d.tsr, d.pitch with
  | some t, some p => rowsN parse p.length t.length rest.tail
  | _, _ => .error .type

/-- one line and what is read with it (135-168) -/
def step {F : Type} (parse : Str → Option F) (d : Perf F) (l : Str) (rest : List Str) : Except RErr (Perf F × List Str) :=
  if has "Pitch angle".toList l then
    match vector parse (rest.headD []) with
    | none => .error .value
    | some v => .ok ({ d with pitch := some v }, rest.tail)
  else if has "TSR".toList l then
    match vector parse (rest.headD []) with
    | none => .error .value
    | some v => .ok ({ d with tsr := some v }, rest.tail)
  else if has "Wind speed".toList l then
    match vector parse (rest.headD []) with
    | none => .error .value
    | some v => .ok ({ d with ws := some v }, rest.tail)
  else if has "Power".toList l then
    match table parse d rest with
    | .error e => .error e
    | .ok (m, rest) => .ok ({ d with cp := some m }, rest)
  else if has "Thrust".toList l then
    match table parse d rest with
    | .error e => .error e
    | .ok (m, rest) => .ok ({ d with ct := some m }, rest)
  else if has "Torque".toList l then
    match table parse d rest with
    | .error e => .error e
    | .ok (m, rest) => .ok ({ d with cq := some m }, rest)
  else .ok (d, rest)

/-- the loop (134-171); `i` is `iline`, `fuel` bounds the number of iterations (one per line is
enough) -/
def loop {F : Type} (parse : Str → Option F) : Nat → Nat → Perf F → List Str → Except RErr (Perf F)
  | _, _, d, [] => .ok d
  | 0, _, d, _ :: _ => .ok d
  | fuel + 1, i, d, l :: ls =>
    match step parse d l ls with
    | .error e => .error e
    | .ok (d, rest) => if d.pitch.isNone ∧ i > 10 then .error .wrong else loop parse fuel (i + 1) d rest

/-- the dictionary (70-79) -/
structure File (F : Type) where
  pitch : List F
  tsr : List F
  ws : Option (List F)
  cp : List (List F)
  ct : List (List F)
  cq : List (List F)
deriving DecidableEq

/-- `load_from_txt` and `_read` (118-173, 70-79): the tables must have been assigned; a table is
read only after the pitch angles and tip speed ratios -/
def load {F : Type} (parse : Str → Option F) (lines : List Str) : Except RErr (File F) :=
  match loop parse lines.length 0 {} lines with
  | .error e => .error e
  | .ok d =>
    match d.pitch, d.tsr, d.cp, d.ct, d.cq with
    | some p, some t, some a, some b, some c => .ok ⟨p, t, d.ws, a, b, c⟩
    | _, _, _, _, _ => .error .unbound

/-- printed numbers: `'{:0.4}'`, `'{:.6f}'`, `'{:.2f}'`, and the text of a count -/
structure Fmt (F : Type) where
  short : F → Str
  fixed : F → Str
  two : F → Str

/-- `for i in …: file.write('{:0.4}' + blanks)` (193-194) -/
def cells {F : Type} (f : F → Str) (sep : Str) (v : List F) : Str := v.flatMap (fun x => f x ++ sep)

/-- the rows of a table with their line breaks (205-208); `CP[i,j]` with `i < len(TSR)`,
`j < len(pitch)` -/
def tableText {F : Type} (φ : Fmt F) (m : List (List F)) : Str :=
  m.flatMap (fun r => cells φ.fixed "   ".toList r ++ "\n".toList)

/-- `write_rotor_performance` (176-229).  `now` is the name of line 189, which the module does not
define: `none`.  The result is the exception, if any, and the content of the file. -/
def write {F : Type} (φ : Fmt F) (now : Option Str) (name : Str) (d : File F) : Except RErr Unit × Str :=
  let first := "# ----- Rotor performance tables for the ".toList ++ name ++ " wind turbine ----- \n".toList
  match now with
  | none => (.error .name, first)
  | some date =>
    (.ok (), first ++ "# ------------ Written on ".toList ++ date ++ " using the ROSCO toolbox ------------ \n\n".toList
      ++ "# Pitch angle vector, ".toList ++ showInt d.pitch.length ++ " entries - x axis (matrix columns) (deg)\n".toList
      ++ cells φ.short "   ".toList d.pitch
      ++ "\n# TSR vector, ".toList ++ showInt d.tsr.length ++ " entries - y axis (matrix rows) (-)\n".toList
      ++ cells φ.short "    ".toList d.tsr
      ++ (match d.ws with
          | none => []
          | some w => "\n# Wind speed vector - z axis (m/s)\n".toList ++ cells φ.short "    ".toList w ++ "\n".toList)
      ++ "\n# Power coefficient\n\n".toList ++ tableText φ d.cp ++ "\n".toList
      ++ "\n#  Thrust coefficient\n\n".toList ++ tableText φ d.ct ++ "\n".toList
      ++ "\n# Torque coefficient\n\n".toList ++ tableText φ d.cq ++ "\n".toList)

/-- one data frame of `toDataFrame` (86-93): names of the columns and rows; `np.column_stack` needs
as many ratios as rows, the data frame as many names as columns (ValueError) -/
def frame {F : Type} (φ : Fmt F) (pitch tsr : List F) (m : List (List F)) : Except RErr (List Str × List (List F)) :=
  let columns := "TSR_[-]".toList :: pitch.map (fun p => "Pitch_".toList ++ φ.two p ++ "_[deg]".toList)
  if m.length = tsr.length ∧ ∀ r ∈ m, r.length + 1 = columns.length then
    .ok (columns, List.zipWith (· :: ·) tsr m)
  else .error .value

/-- `toDataFrame` (86-93): the frames CP, CT, CQ -/
def toDataFrame {F : Type} (φ : Fmt F) (d : File F) : Except RErr (List (Str × List Str × List (List F))) :=
  match frame φ d.pitch d.tsr d.cp, frame φ d.pitch d.tsr d.ct, frame φ d.pitch d.tsr d.cq with
  | .ok a, .ok b, .ok c => .ok [("CP".toList, a), ("CT".toList, b), ("CQ".toList, c)]
  | _, _, _ => .error .value

end Verif.Rosco
