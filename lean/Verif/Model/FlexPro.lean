import Verif.Model.Rosco
/-!
# FLEX profile files — `/repo/weio/flex_profile_file.py`

`_read` (51-115), `_toDataFrame` (139-146).

Simplifications
* `float(s)` and `int(s)` are parameters `parse`, `int`; `str(t)` of a thickness is a parameter `str`;
* the file is its list of lines; the file iterator and `readline` share one position (Python 3);
  `readline` at the end gives `''`;
* a row of a polar is assigned to a row of `np.zeros((nAlpha, 4))`: numpy takes a row of four
  numbers, repeats a row of one number, and refuses any other (`Rosco.fitRow`).
-/
namespace Verif.FlexPro
open Verif.Py
open Verif.Rosco (fitRow)

/-- exceptions: `WrongFormatError`, `BrokenFormatError`, `ValueError` (numpy array of negative size) -/
inductive PErr where
  | wrong | broken | value
deriving DecidableEq, Repr

/-- the texts of numbers -/
structure Num (F : Type) where
  parse : Str → Option F
  int : Str → Option Int

/-- `ProfileSet` (14-19) -/
structure PSet (F : Type) where
  header : Str
  thickness : List F
  polars : List (List (List F))
  polarHeaders : List Str
deriving DecidableEq

/-- the title of a set (86-90): without the words `profile set` it may start with -/
def titleOf (l : Str) : Str :=
  if startsWith (lower l) "profile set".toList then l.drop 11 else l

/-- `read_header` (55-91): number of angles, thicknesses, title, remaining lines; no thickness when
less than four lines are left and this is allowed -/
def readHeader {F : Type} (φ : Num F) (allowEmpty : Bool) : List Str → Except PErr (Int × List F × Str × List Str)
  | l0 :: l1 :: l2 :: l3 :: rest =>
    match φ.int (strip l1) with
    | none => .error .wrong
    | some nThickness =>
      match (words (strip l2)).mapM φ.parse with
      | none => .error .wrong
      | some thickness =>
        if (thickness.length : Int) ≠ nThickness then .error .wrong
        else
          match φ.int (strip l3) with
          | none => .error .wrong
          | some nAlpha => .ok (nAlpha, thickness, titleOf (strip l0), rest)
  | _ => if allowEmpty then .ok (0, [], [], []) else .error .wrong

/-- the rows of a polar (100-101) -/
def readRows {F : Type} (φ : Num F) : Nat → List Str → Except PErr (List (List F) × List Str)
  | 0, ls => .ok ([], ls)
  | n + 1, ls =>
    match ((words (ls.headD [])).mapM φ.parse).bind (fitRow 4) with
    | none => .error .broken
    | some r =>
      match readRows φ n ls.tail with
      | .error e => .error e
      | .ok (rs, rest) => .ok (r :: rs, rest)

/-- `read_polars` (93-105): polars, their headers, remaining lines -/
def readPolars {F : Type} (φ : Num F) (nAlpha : Int) : List F → List Str → Except PErr (List (List (List F)) × List Str × List Str)
  | [], ls => .ok ([], [], ls)
  | _ :: ts, ls =>
    if nAlpha < 0 then .error .value
    else
      match readRows φ nAlpha.toNat ls.tail with
      | .error e => .error e
      | .ok (p, rest) =>
        match readPolars φ nAlpha ts rest with
        | .error e => .error e
        | .ok (ps, hs, rest) => .ok (p :: ps, strip (ls.headD []) :: hs, rest)

/-- the loop over the sets (108-115); `first` is `setNumber == 1`. Every set takes four lines or more. -/
def readSets {F : Type} (φ : Num F) : Nat → Bool → List Str → Except PErr (List (PSet F))
  | 0, _, _ => .ok []
  | f + 1, first, ls =>
    match readHeader φ (!first) ls with
    | .error e => .error e
    | .ok (nAlpha, thickness, header, rest) =>
      if thickness = [] then .ok []
      else
        match readPolars φ nAlpha thickness rest with
        | .error e => .error e
        | .ok (ps, hs, rest) =>
          match readSets φ f false rest with
          | .error e => .error e
          | .ok sets => .ok (⟨header, thickness, ps, hs⟩ :: sets)

/-- `_read` (51-115) -/
def read {F : Type} (φ : Num F) (ls : List Str) : Except PErr (List (PSet F)) := readSets φ (ls.length + 1) true ls

/-- `d[k] = v` on a dictionary in order of insertion -/
def setKey {α : Type} (d : List (Str × α)) (k : Str) (v : α) : List (Str × α) :=
  if d.any (fun p => p.1 = k) then d.map (fun p => if p.1 = k then (k, v) else p) else d ++ [(k, v)]

/-- the name of a data frame (144) -/
def frameName {F : Type} (str : F → Str) (iset : Nat) (t : F) : Str :=
  "pc_set_".toList ++ Nat.toDigits 10 (iset + 1) ++ "_t_".toList ++ str t

/-- the frames of the sets numbered from `i` (142-145), as pairs in order of assignment -/
def framesFrom {F : Type} (str : F → Str) : Nat → List (PSet F) → List (Str × List (List F))
  | _, [] => []
  | i, s :: ss => (s.thickness.zip s.polars).map (fun tp => (frameName str i tp.1, tp.2)) ++ framesFrom str (i + 1) ss

/-- `_toDataFrame` (139-146); all frames have the four columns of line 140 -/
def toDataFrame {F : Type} (str : F → Str) (sets : List (PSet F)) : List (Str × List (List F)) :=
  (framesFrom str 0 sets).foldl (fun d p => setKey d p.1 p.2) []

end Verif.FlexPro
