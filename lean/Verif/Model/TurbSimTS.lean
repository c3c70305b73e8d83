import Verif.Py.Str
import Verif.Model.HawcAe
import Verif.Model.Hawc2Sel
import Verif.Model.St
/-! # TurbSim time series files (`/repo/weio/turbsim_ts_file.py`)

Numbers are those of `St.Num` (`float` and `int` of a text) and a text for `'{:16.8e}'`.  Lines are taken
without their ends: the code only strips them, splits them and looks for a word in them.  `str.lower` is
that of ASCII letters. -/
namespace Verif.TurbSimTS
open Verif.Py
open Verif.St (Num)

/-- exceptions: `BrokenFormatError` (turbsim_ts_file.py:29), ValueError of `int`, `float`, `np.zeros` and of
arrays which do not fit, IndexError of `line.split()[0]` (34, 36, 38) and of `Comp[ic]` (54), and the
UnboundLocalError of `line` for an empty file (34) -/
inductive Err
  | broken | value | index | unbound
  deriving DecidableEq, Repr

/-- what is read (turbsim_ts_file.py:33-50); an array of no rows is `[]` -/
structure Obj (F : Type) where
  header : List Str
  nComp : Int
  id : Int
  points : List (F × F)
  data : List (List F)

/-- the loop (turbsim_ts_file.py:27-33), `i` lines and the line `last` read: the header, the line at which
the loop stops and the lines after it -/
def findComp (i : Nat) (last : Option Str) : List Str → Except Err (List Str × Str × List Str)
  | [] =>
    match last with
    | none => .error .unbound
    | some l => .ok ([], l, [])
  | l :: ls =>
    if i > 10 then .error .broken
    else if Hawc2Sel.mentions "ncomp".toList l then .ok ([], l, ls)
    else do
      let (h, r) ← findComp (i + 1) (some l) ls
      .ok (strip l :: h, r)

/-- `int(line.split()[0])` (turbsim_ts_file.py:34, 36, 38) -/
def firstInt {F : Type} (φ : Num F) (l : Str) : Except Err Int :=
  match words l with
  | [] => .error .index
  | w :: _ =>
    match φ.int w with
    | none => .error .value
    | some n => .ok n

/-- `self['Points'][i,:]= np.array(line.split()).astype(float)` (turbsim_ts_file.py:44): two numbers, or
one which numpy repeats -/
def pointRow {F : Type} (φ : Num F) (l : Str) : Except Err (F × F) :=
  match (words l).mapM φ.flt with
  | some [x, y] => .ok (x, y)
  | some [x] => .ok (x, x)
  | _ => .error .value

/-- the loop over the points (turbsim_ts_file.py:42-44): the points and the lines after them; `readline` at
the end of the file gives an empty text -/
def readPoints {F : Type} (φ : Num F) : Nat → List Str → Except Err (List (F × F) × List Str)
  | 0, ls => .ok ([], ls)
  | n + 1, ls => do
    let p ← pointRow φ (ls.headD [])
    let (ps, r) ← readPoints φ n ls.tail
    .ok (p :: ps, r)

/-- `np.array([... takewhile(...)]).astype(float)` (turbsim_ts_file.py:50) -/
def readData {F : Type} (φ : Num F) (ls : List Str) : Except Err (List (List F)) :=
  match St.array φ ((ls.takeWhile (fun l => decide (strip l ≠ []))).map (fun l => words (strip l))) with
  | .ok r => .ok r
  | .error _ => .error .value

/-- `_read` after the header (turbsim_ts_file.py:34-50) -/
def readBody {F : Type} (φ : Num F) (h : List Str) (l : Str) (ls : List Str) : Except Err (Obj F) := do
  let nComp ← firstInt φ l
  let nPoints ← firstInt φ (strip (ls.headD []))
  let id ← firstInt φ (strip (ls.tail.headD []))
  if nPoints < 0 then .error .value
  else do
    let (ps, r) ← readPoints φ nPoints.toNat (ls.drop 4)
    let d ← readData φ (r.drop 3)
    .ok ⟨h, nComp, id, ps, d⟩

/-- `_read` (turbsim_ts_file.py:21-50) of the text of the file -/
def read {F : Type} (φ : Num F) (s : Str) : Except Err (Obj F) := do
  let (h, l, ls) ← findComp 0 none (HawcAe.readlines s)
  readBody φ h l ls

/-- `Comp[ic]` (turbsim_ts_file.py:53-54) -/
def comp (ic : Nat) : Except Err Char :=
  match ['u', 'v', 'w'][ic]? with
  | some c => .ok c
  | none => .error .index

/-- `columns` (turbsim_ts_file.py:52-54); `np.arange` of a negative number is empty -/
def columns {F : Type} (o : Obj F) : Except Err (List Str) := do
  let ns ← ((List.range o.nComp.toNat).flatMap (fun ic => (List.range o.points.length).map (fun ip => (ic, ip)))).mapM
    (fun p => do
      let c ← comp p.1
      .ok ("Point".toList ++ St.showInt ((p.2 : Int) + 1) ++ [c]))
  .ok ("Time".toList :: ns)

/-- `units` (turbsim_ts_file.py:56-58) -/
def units {F : Type} (o : Obj F) : List Str :=
  "(s)".toList :: List.replicate (o.points.length * o.nComp.toNat) "(m/s)".toList

/-- `toStringVLD` (turbsim_ts_file.py:62-69) of a whole number and a description without blanks or dashes at
its ends -/
def vld (n : Int) (lab descr : Str) : Str :=
  Hawc2Sel.padTo 13 (St.showInt n) ++ ' ' :: (Hawc2Sel.padTo 13 lab ++ " - ".toList ++ descr)

/-- `'{:^16s}'.format(s)` (turbsim_ts_file.py:76-77, 82-83): the odd blank is on the right -/
def center16 (s : Str) : Str :=
  List.replicate ((16 - s.length) / 2) ' ' ++ s ++ List.replicate ((16 - s.length) - (16 - s.length) / 2) ' '

/-- `toString` (turbsim_ts_file.py:60-85) -/
def toString {F : Type} (e : F → Str) (o : Obj F) : Except Err Str := do
  let cols ← columns o
  .ok (joinWith ['\n'] o.header ++ ['\n'] ++
    HawcAe.unlines (
      [vld o.nComp "nComp".toList "Number of velocity components in the file".toList,
       vld (o.points.length : Int) "nPoints".toList "Number of time series points contained in this file(-)".toList,
       vld o.id "RefPtID".toList "Index of the reference point (1-nPoints)".toList,
       center16 "Pointyi".toList ++ center16 "Pointzi".toList ++ ' ' :: "! nPoints listed in order of increasing height".toList,
       center16 "(m)".toList ++ center16 "(m)".toList] ++
      o.points.map (fun p => e p.1 ++ e p.2) ++
      ["--------Time Series-------------------------------------------------------------".toList,
       cols.flatMap center16,
       (units o).flatMap center16]) ++
    joinWith ['\n'] (o.data.map (St.rowText e)))

/-- a data frame: names of the columns, rows -/
structure Frame (F : Type) where
  cols : List Str
  rows : List (List F)

/-- `'{}_{}'.format(c.replace(' ','_'), u.replace('(','[').replace(')',']'))` (turbsim_ts_file.py:94) -/
def colName (c u : Str) : Str :=
  c.map (fun x => if x = ' ' then '_' else x) ++ '_' ::
    (u.map (fun x => if x = '(' then '[' else x)).map (fun x => if x = ')' then ']' else x)

/-- `_toDataFrame` (turbsim_ts_file.py:93-99): `Points` and `TimeSeries`.  `pd.DataFrame` raises ValueError
when the rows are not as wide as there are names; an array of no rows has one column. -/
def toDataFrame {F : Type} (o : Obj F) : Except Err (Frame F × Frame F) := do
  let cs ← columns o
  let names := List.zipWith colName cs (units o)
  if (match o.data with | [] => 1 | r :: _ => r.length) ≠ names.length then .error .value
  else .ok (⟨["PointYi".toList, "PointZi".toList], o.points.map (fun p => [p.1, p.2])⟩, ⟨names, o.data⟩)

end Verif.TurbSimTS
