import Verif.Py.Str
/-!
# Bladed output files: flattening 3-d results, merging result files

`/repo/weio/bladed_out_file.py`.  The sensor and data files are not parsed in the model:
it starts from what `read_bladed_sensor_file` and the data readers return.  Arrays are
lists of rows or lists of columns.
-/
namespace Verif.Bladed
open Verif.Py

/-- exceptions -/
inductive Err where
  | index        -- IndexError
  | key          -- KeyError
  | value        -- ValueError
  | notFound     -- FileNotFoundError
  | broken       -- BrokenFormatError
deriving DecidableEq, Repr

/-! ## `OrgData` (131-157) -/

/-- label of a column (143-146): `lab` gives the text of a section, `str(around(float(sec),2))+'m'`
or `str(sec)`; it is a parameter, the rounding to two decimals is in it -/
def label (lab : σ → Str) (sec : σ) (chan : Str) : Str := lab sec ++ '-' :: chan

/-- the names in the order of the loops (140-147); `zip` stops at the shorter list -/
def orgNames (lab : σ → Str) (secs : List σ) (chans units : List Str) : List Str :=
  secs.flatMap fun sec => (chans.zip units).map fun cu => label lab sec cu.1

/-- the units in the order of the loops (147) -/
def orgUnits (secs : List σ) (chans units : List Str) : List Str :=
  secs.flatMap fun _ => (chans.zip units).map fun cu => cu.2

/-- one row `dataOut[t, :]` (138-149): the entry `[isec][ichan]` of the input row goes to
column `col_vec`, which counts the turns of the inner loop; the columns that are not
reached keep the zero of `np.zeros` -/
def orgRow (zero : α) (nsec : Nat) (chans units : List Str) (row : List (List α)) : List α :=
  let used := (List.range nsec).flatMap fun isec =>
    (List.range (chans.zip units).length).map fun ichan => ((row[isec]?.getD [])[ichan]?).getD zero
  used ++ List.replicate (nsec * chans.length - used.length) zero

/-- the result of reading: data by rows with the names and units of the columns -/
structure Flat (α : Type) where
  names : List Str
  units : List Str
  rows : List (List α)
deriving DecidableEq, Repr

/-- `OrgData` for `NDIMENS == 3` (131-157); the input is `data[t][isec][ichan]` -/
def orgData (zero : α) (lab : σ → Str) (secs : List σ) (chans units : List Str) (data : List (List (List α))) : Flat α :=
  ⟨orgNames lab secs chans units, orgUnits secs chans units, data.map (orgRow zero secs.length chans units)⟩

/-- reshape of the flat file content to `(nMajor, nSections, nSensors)` (183-188, 214):
ValueError when the size does not fit -/
def reshape3 (nMajor nSec nSens : Nat) (flat : List α) : Except Err (List (List (List α))) :=
  if flat.length = nMajor * nSec * nSens then
    .ok ((List.range nMajor).map fun t => (List.range nSec).map fun s =>
      (flat.drop ((t * nSec + s) * nSens)).take nSens)
  else .error .value

/-! ## `toDataFrame` (360-372) -/

/-- `df.loc[:,~df.columns.duplicated()]` (366): the first of the columns of one name stays -/
def dropDup (seen : List Str) : List (Str × List α) → List (Str × List α)
  | [] => []
  | (n, c) :: r => if n ∈ seen then dropDup seen r else (n, c) :: dropDup (n :: seen) r

/-- the columns of a data set: `name [unit]` (363) with its values -/
def frame (names units : List Str) (cols : List (List α)) : Except Err (List (Str × List α)) :=
  let labels := (names.zip units).map fun nu => nu.1 ++ " [".toList ++ nu.2 ++ "]".toList
  if labels.length = cols.length then .ok (dropDup [] (labels.zip cols)) else .error .value   -- DataFrame(...) (364)

/-- column `j` of rows -/
def col (zero : α) (rows : List (List α)) (j : Nat) : List α := rows.map fun r => (r[j]?).getD zero

/-! ## Merging the result files (`_read`, 266-357) -/

/-- a series with its name and unit -/
structure Column (α : Type) where
  name : Str
  unit : Str
  vals : List α
deriving DecidableEq, Repr

/-- what `read_bladed_output` returns for one sensor file: `nMajor`, the category, start
and step when present, and the columns -/
structure Info (α : Type) where
  nMajor : Nat
  category : Str
  start : Option α
  step : Option α
  cols : List (Column α)
deriving DecidableEq, Repr

/-- outcome of reading one result file (299-317) -/
inductive Res (α : Type) where
  | ok (info : Info α)
  | missing                 -- FileNotFoundError: continue unless it is the only file
  | value                   -- ValueError: continue unless it is the only file
  | other                   -- any other error: raised
deriving DecidableEq, Repr

/-- a data set -/
structure DSet (α : Type) where
  name : Str
  cols : List (Column α)
deriving DecidableEq, Repr

/-- the forced time column (337-342); `time k step start` is `k*step + start` -/
def timeCol (time : Nat → α → α → α) (n : Nat) (step start : α) : Column α :=
  ⟨"Time".toList, "s".toList, (List.range n).map fun k => time k step start⟩

/-- columns of a new data set (333-346); a step without a start is a KeyError -/
def firstCols (time : Nat → α → α → α) (i : Info α) : Except Err (List (Column α)) :=
  match i.step with
  | none => .ok i.cols
  | some dt => match i.start with
    | none => .error .key
    | some t0 => .ok (timeCol time i.nMajor dt t0 :: i.cols)

/-- decimal text of a number -/
def natStr (n : Nat) : Str := (Nat.repr n).toList

/-- adding the data of one file (322-347): `dataSets` is a dictionary keyed by `nMajor` in order of
insertion; `column_stack` needs equal numbers of rows, which hold by the choice of the key -/
def addInfo (time : Nat → α → α → α) (i : Info α) : List (Nat × DSet α) → Except Err (List (Nat × DSet α))
  | [] => match firstCols time i with
    | .error e => .error e
    | .ok cs => .ok [(i.nMajor, ⟨i.category, cs⟩)]
  | (k, d) :: r =>
    if k = i.nMajor then .ok ((k, ⟨"Misc_".toList ++ natStr k, d.cols ++ i.cols⟩) :: r)
    else match addInfo time i r with
      | .error e => .error e
      | .ok r' => .ok ((k, d) :: r')

/-- the loop over the files (296-347); `only` says whether there is only one file.  A file
without rows is skipped (318-320), as is one without step when only time series are wanted
(170-173) -/
def mergeLoop (time : Nat → α → α → α) (only timeOnly : Bool) : List (Res α) → List (Nat × DSet α) → Except Err (List (Nat × DSet α))
  | [], ds => .ok ds
  | .missing :: r, ds => if only then .error .notFound else mergeLoop time only timeOnly r ds
  | .value :: r, ds => if only then .error .value else mergeLoop time only timeOnly r ds
  | .other :: _, _ => .error .broken
  | .ok i :: r, ds =>
    if timeOnly && i.step.isNone then mergeLoop time only timeOnly r ds
    else if i.nMajor = 0 then mergeLoop time only timeOnly r ds
    else match addInfo time i ds with
      | .error e => .error e
      | .ok ds' => mergeLoop time only timeOnly r ds'

/-- dictionary comprehension: a later entry of the same name replaces the earlier one, in its place -/
def insertName (n : Str) (d : DSet α) : List (Str × DSet α) → List (Str × DSet α)
  | [] => [(n, d)]
  | (n', d') :: r => if n' = n then (n', d) :: r else (n', d') :: insertName n d r

/-- the final naming (349-357) -/
def nameSets (ds : List (Nat × DSet α)) : List (Str × DSet α) :=
  match ds.filter (fun kd => "Misc_".toList.isPrefixOf kd.2.name) with
  | [kd] => [("Misc".toList, kd.2)]
  | _ => ds.foldl (fun acc kd => insertName kd.2.name kd.2 acc) []

/-- `_read` (266-357) after the search for the files: `files` are the results of reading the
sensor files in sorted order, `pj` says that a `.$PJ` file was asked for -/
def readSets (time : Nat → α → α → α) (pj : Bool) (files : List (Res α)) : Except Err (List (Str × DSet α)) :=
  match files with
  | [] => .error .notFound
  | _ =>
    match mergeLoop time (files.length = 1) (pj && files.length ≠ 1) files [] with
    | .error e => .error e
    | .ok ds => .ok (nameSets ds)

end Verif.Bladed
