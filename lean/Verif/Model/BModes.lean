import Verif.Model.HawcAe
import Verif.Model.FastLine
/-!
# BModes output files

`/repo/weio/bmodes_out_file.py`, lines 72-116.  The value of a text of a number is a parameter.  The lines are taken without
their ends: `find`, `strip`, `split` and `float` do not depend on them.
-/
namespace Verif.BModes
open Verif.Py

/-- exceptions -/
inductive Err where
  | wrong   -- WrongFormatError
  | value   -- ValueError
deriving DecidableEq, Repr

/-- where the reader is: looking for a frequency (86-89), `k+1` lines above a table (91-93), or in a table with the words of
the rows so far (94-100) -/
inductive At where
  | scan
  | skip (k : Nat)
  | table (acc : List (List Str))
deriving DecidableEq, Repr

/-- `float(row_string[freq_id+7:freq_id+19])` (90) -/
def freqOf (flt : Str → Option F) (l : Str) (i : Nat) : Except Err F :=
  match flt (strip ((l.drop (i + 7)).take 12)) with
  | some x => .ok x
  | none => .error .value

/-- `np.asarray(data).astype(float)` (101): rows of different lengths and texts that are no numbers give ValueError.  An empty
table is an array of one dimension. -/
def shapeOf (flt : Str → Option F) (acc : List (List Str)) : Except Err (List (List F)) :=
  match acc.mapM fun r => r.mapM flt with
  | none => .error .value
  | some m => if m.all (fun r => r.length = (m.headD []).length) then .ok m else .error .value

/-- the loop (86-101): frequencies and tables, in the order of the file.  At the end of the file `readline` gives the empty
text, which ends a table. -/
def go (flt : Str → Option F) : At → List Str → Except Err (List F × List (List (List F)))
  | .scan, [] => .ok ([], [])
  | .scan, l :: r => match find "freq = ".toList l with
    | some (i + 1) => do
      let f ← freqOf flt l (i + 1)
      let (fs, ms) ← go flt (.skip 2) r
      .ok (f :: fs, ms)
    | _ => go flt .scan r
  | .skip _, [] => .ok ([], [[]])
  | .skip 0, _ :: r => go flt (.table []) r
  | .skip (k + 1), _ :: r => go flt (.skip k) r
  | .table acc, [] => do
    let m ← shapeOf flt acc
    .ok ([], [m])
  | .table acc, l :: r =>
    if strip l = [] ∨ startsWith l "===".toList = true then do
      let m ← shapeOf flt acc
      let (fs, ms) ← go flt .scan r
      .ok (fs, m :: ms)
    else go flt (.table (acc ++ [words l])) r

/-- `_read` (72-101) of a file with the text `s`: `self['frequencies']` and `self['mode_shapes']` -/
def read (flt : Str → Option F) (s : Str) : Except Err (List F × List (List (List F))) :=
  match HawcAe.readlines s with
  | [] => .error .wrong
  | l :: r => match find "BModes".toList l with
    | none => .error .wrong   -- 84-85
    | some _ => go flt .scan r

/-- the labels of the columns (113) -/
def labels : List Str := ["span_loc".toList, "s-s disp".toList, "s-s slope".toList, "f-a disp".toList, "f-a slope".toList, "twist".toList]

/-- the tables of the modes from number `i` on (114-115): pandas refuses an array that has not six columns -/
def framesFrom (i : Nat) : List (List (List F)) → Except Err (List (Str × List Str × List (List F)))
  | [] => .ok []
  | m :: r => if m ≠ [] ∧ m.all (fun row => row.length = 6) then do
      let t ← framesFrom (i + 1) r
      .ok (("Mode_".toList ++ FastLine.showInt ((i : Int) + 1), labels, m) :: t)
    else .error .value

/-- `toDataFrame` (110-116): name, labels and rows of each table -/
def frames (modes : List (List (List F))) : Except Err (List (Str × List Str × List (List F))) := framesFrom 0 modes

end Verif.BModes
