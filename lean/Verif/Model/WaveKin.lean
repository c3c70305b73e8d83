import Verif.Model.Csv
import Verif.Model.FlexDoc
/-!
# FLEX wave kinematics files

`/repo/weio/flex_wavekin_file.py`, `_read` (27-85).  The file is read with `CSVFile` (`Csv`), the numbers of the header with the
pattern of `FlexDoc` (28-32).  The values of texts of numbers, products and `{:.1f}` are parameters.
-/
namespace Verif.WaveKin
open Verif.Py

/-- exceptions -/
inductive Err where
  | wrong   -- WrongFormatError (37)
  | broken  -- BrokenFormatError (53, 59, 65, 68, 71, 84)
deriving DecidableEq, Repr

/-- numbers: `float` and `int` of a text, `a*b`, `a*-1`, `'{:.1f}'` -/
structure Num (F : Type) where
  flt : Str → F
  int : Str → Option Int
  mul : F → F → F
  neg : F → F
  fmt : F → Str

/-- the object -/
structure Obj (F : Type) where
  header : List Str
  crest : F
  vel : F
  acc : F
  waterDepth : F
  hs : F
  tp : F
  spec : F
  relDepth : List F
  displ : List F
  columns : List Str
  data : List (List Csv.Cell)
deriving DecidableEq, Repr

/-- `header[i]` (44-63) -/
def line (h : List Str) (i : Nat) : Option Str := h[i]?

/-- `extract_floats(header[i])[0]` (44-46, 56-57) -/
def first (h : List Str) (i : Nat) : Option Str := (line h i).bind fun l => (FlexDoc.findall l)[0]?

/-- the labels (76-81) -/
def labels (N : Num F) (depth : F) (displ rel : List F) : List Str :=
  ["Time_[s]".toList, "WaveElev_[m]".toList] ++ displ.flatMap fun x =>
    (rel.map fun z => "u_z=".toList ++ N.fmt (N.neg (N.mul z depth)) ++ "_x=".toList ++ N.fmt x ++ "_[m/s]".toList) ++
    (rel.map fun z => "a_z=".toList ++ N.fmt (N.mul z depth) ++ "_x=".toList ++ N.fmt x ++ "_[m/s^2]".toList)

/-- `_read` (27-85) -/
def read (T : Csv.Txt) (N : Num F) (lines : List Str) : Except Err (Obj F) :=
  match Csv.read T { sep := some (.ch ' '), commentLines := List.range 11, detect := false } lines with
  | .error _ => .error .wrong
  | .ok csv =>
    let h := csv.header
    match first h 2, first h 3, first h 4, (line h 5).map FlexDoc.findall with
    | some c, some v, some a, some (d :: s :: t :: p :: _) =>
      match (first h 6).bind N.int, (first h 8).bind N.int with
      | some nd, some nr =>
        match line h 7, line h 9 with
        | some l7, some l9 =>
          let displ := (FlexDoc.findall l7).map N.flt
          let depth := (FlexDoc.findall l9).map N.flt
          if (displ.length : Int) ≠ nd then .error .broken
          else if (depth.length : Int) ≠ nr then .error .broken
          else
            let cols := labels N (N.flt d) displ depth
            if cols.length ≠ csv.columns.length then .error .broken
            else .ok ⟨h.take 2, N.flt c, N.flt v, N.flt a, N.flt d, N.flt s, N.flt t, N.flt p, depth, displ, cols, csv.data⟩
        | _, _ => .error .broken
      | _, _ => .error .broken
    | _, _, _, _ => .error .broken

end Verif.WaveKin
