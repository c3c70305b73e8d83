import Verif.Py.Str
import Mathlib.Order.Lattice
/-!
# Tables of Excel, TDMS and RAAW files

`/repo/weio/excel_file.py`, `/repo/weio/tdms_file.py`, `/repo/weio/raawmat_file.py`.

What the libraries (pandas, nptdms, scipy) take from the bytes is the input: the cells of the sheets, the paths of the objects with the samples of the
channels, and the signals.
-/
namespace Verif.Sheets
open Verif.Py

/-- exceptions -/
inductive Err where
  | index            -- IndexError: no channel (tdms_file.py:47)
  | key              -- KeyError of `fh.object` (tdms_file.py:29)
  | value            -- ValueError of numpy and pandas
  | notImplemented   -- NotImplementedError (tdms_file.py:38, 42, 45)
  | name             -- NameError: no signal (raawmat_file.py:54)
deriving DecidableEq, Repr

/-! ## Excel (excel_file.py) -/

section
variable {C : Type}

/-- the cells of a sheet as `xls.parse(sheet_name, header=None)` gives them (excel_file.py:34): rows of the same width; an empty cell is NaN -/
abbrev Sheet (C : Type) := List (List (Option C))

/-- a data frame: the names of the columns and the rows (excel_file.py:42) -/
structure Frame (C : Type) where
  cols : List (Option C)
  rows : List (List (Option C))
deriving DecidableEq, Repr

/-- the cell `j` of a row of `df` (excel_file.py:34) -/
def cellOf (r : List (Option C)) (j : Nat) : Option C := (r[j]?).join

/-- `df.dropna(how='all',axis=0)` (excel_file.py:37) -/
def dropRows (s : Sheet C) : Sheet C := s.filter fun r => r.any Option.isSome

/-- the columns kept by `df.dropna(how='all',axis=1)` (excel_file.py:38) -/
def keptCols (s : Sheet C) : List Nat := (List.range ((s.map List.length).foldr max 0)).filter fun j => s.any fun r => (cellOf r j).isSome

/-- one sheet (excel_file.py:34-43): nothing if no row is left, otherwise the first row has the names -/
def readSheet (s : Sheet C) : Option (Frame C) :=
  let t := dropRows s
  let js := keptCols t
  match t with
  | [] => none
  | h :: body => some ⟨js.map (cellOf h), body.map fun r => js.map (cellOf r)⟩

/-- `_read` (excel_file.py:24-43) -/
def readBook (book : List (Str × Sheet C)) : List (Str × Frame C) := book.filterMap fun x => (readSheet x.2).map fun f => (x.1, f)

/-- the sheet of `df.to_excel(writer, sheet_name=k, index=False)` (excel_file.py:56) -/
def toSheet (f : Frame C) : Sheet C := f.cols :: f.rows

/-- `_write` (excel_file.py:50-74) -/
def writeBook (d : List (Str × Frame C)) : List (Str × Sheet C) := d.map fun x => (x.1, toSheet x.2)

end

/-! ## TDMS (tdms_file.py) -/

section
variable {V : Type}

/-- `s.replace("'",'')` (23) -/
def noQuotes (s : Str) : Str := s.filter fun c => c ≠ '\''

/-- `channel_keys` (22-24): group and name of the paths with three parts -/
def channelKeys (paths : List Str) : List (Str × Str) :=
  (paths.map fun p => splitOn '/' (noQuotes p)).filterMap fun
    | [_, g, c] => some (g, c)
    | _ => none

/-- the loop (28-31); `obj` is `fh.object`: samples and time of a channel -/
def channels (obj : Str → Str → Option (List V × List V)) : List (Str × Str) → Except Err (List (List V × List V))
  | [] => .ok []
  | (g, c) :: l =>
    match obj g c with
    | none => .error .key
    | some x =>
      match channels obj l with
      | .error e => .error e
      | .ok xs => .ok (x :: xs)

/-- `len(np.unique(l))>1` (36, 40, 43) -/
def several {A : Type} [DecidableEq A] (l : List A) : Bool :=
  match l with
  | [] => false
  | a :: l => l.any fun b => b ≠ a

/-- `np.min` and `np.max` of a list: ValueError for an empty one (34-35) -/
def extremes (op : V → V → V) : List (List V) → Except Err (List V)
  | [] => .ok []
  | [] :: _ => .error .value
  | (a :: l) :: rest =>
    match extremes op rest with
    | .error e => .error e
    | .ok xs => .ok (l.foldl op a :: xs)

/-- `_read` (22-51): the names and the columns; `np.column_stack` raises ValueError if the lengths differ -/
def tdms [LinearOrder V] (obj : Str → Str → Option (List V × List V)) (paths : List Str) : Except Err (List (Str × List V)) :=
  let keys := channelKeys paths
  match channels obj keys with
  | .error e => .error e
  | .ok xs =>
  let times := xs.map Prod.snd
  match extremes min times with
  | .error e => .error e
  | .ok mins =>
  match extremes max times with
  | .error e => .error e
  | .ok maxs =>
  if several (times.map List.length) then .error .notImplemented
  else if several mins then .error .notImplemented
  else if several maxs then .error .notImplemented
  else
    match times with
    | [] => .error .index
    | t :: _ =>
      if xs.all fun x => x.1.length = t.length then .ok (("Time_[s]".toList, t) :: (keys.map Prod.snd).zip (xs.map Prod.fst))
      else .error .value

end

/-! ## RAAW (raawmat_file.py) -/

section
variable {V T : Type}

/-- a signal (42-49): its name, sampling time, start and samples (two or more: `squeeze` leaves them as they are) -/
structure Signal (V T : Type) where
  name : Str
  step : V
  start : T
  samples : List V
deriving DecidableEq, Repr

/-- `pd.DataFrame(dat).T` with the index of the given length (97-102): shorter columns are filled with NaN; ValueError if one is longer -/
def toFrame (nan : V) (n : Nat) (cols : List (Str × List V)) : Except Err (List (Str × List V)) :=
  if cols.all fun c => c.2.length ≤ n then .ok (cols.map fun c => (c.1, c.2 ++ List.replicate (n - c.2.length) nan)) else .error .value

/-- the two tables: start of the index, columns (109-110) -/
structure Raaw (V T : Type) where
  start : T
  fast : List (Str × List V)
  slow : List (Str × List V)
deriving DecidableEq, Repr

/-- the loop over the signals (41-51): the names and samples of the signals with a sampling time -/
def withStep [DecidableEq V] (dt : V) (sigs : List (Signal V T)) : List (Str × List V) := (sigs.filter fun s => s.step = dt).map fun s => (s.name, s.samples)

/-- `matfile` (7-111) with `output='pandas'` and without a key; `fastTime`, `slowTime` are `np.arange(600,step=0.02)` and `np.arange(600,step=1)`, `fastStep`, `slowStep` are
0.02 and 1; the start is that of the last signal (54-58) -/
def raaw [DecidableEq V] (nan fastStep slowStep : V) (fastTime slowTime : List V) (sigs : List (Signal V T)) : Except Err (Raaw V T) :=
  match sigs.getLast? with
  | none => .error .name
  | some last =>
    match toFrame nan 30000 (("time".toList, fastTime) :: withStep fastStep sigs) with
    | .error e => .error e
    | .ok f =>
      match toFrame nan 600 (("time".toList, slowTime) :: withStep slowStep (sigs.filter fun s => s.step ≠ fastStep)) with
      | .error e => .error e
      | .ok s => .ok ⟨last.start, f, s⟩

end

end Verif.Sheets
