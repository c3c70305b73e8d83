import Verif.Model.HawcAe
import Verif.Model.Rosco
import Verif.Py.Interp
import Mathlib.Algebra.Order.Group.Abs
/-!
# HAWC2 st files (beam structural data)

`/repo/weio/wetb/hawc2/st_file.py` (`StFile`) and `/repo/weio/hawc2_st_file.py`
(`HAWC2StFile`).  `float(text)` and `int(text)` are parameters, as is the text of a number
(`precision % x`).  A two-dimensional array is the list of its rows; the array of a set
announced with no row (which numpy makes one-dimensional) is the empty list.  The message printed
before an IndexError is raised again (92-94) is left out.
-/
namespace Verif.St
open Verif.Py
open Verif.HawcAe (dset dget padLeft)
open Verif.Rosco (fitRow)

/-- the exceptions -/
inductive SErr
  /-- ValueError -/
  | value
  /-- IndexError -/
  | index
  /-- AssertionError -/
  | assertion
  /-- TypeError -/
  | type
  /-- UnboundLocalError: `linelst` without any set -/
  | unbound
  /-- KeyError -/
  | key
  /-- AttributeError -/
  | attribute
  /-- WrongFormatError -/
  | wrongFormat
deriving DecidableEq, Repr

/-- `stc.split()` (st_file.py:11) -/
def stc : List Str := words "r m x_cg y_cg ri_x ri_y x_sh y_sh E G I_x I_y I_p k_x k_y A pitch x_e y_e".toList

/-- `fpm.split()` (st_file.py:12-13) -/
def fpm : List Str := words ("r m x_cg y_cg ri_x ri_y pitch x_e y_e K_11 K_12 K_13 K_14 K_15 K_16 K_22".toList ++
  " K_23 K_24 K_25 K_26 K_33 K_34 K_35 K_36 K_44 K_45 K_46 K_55 K_56 K_66".toList)

/-- Python's `float(text)` and `int(text)`; `none` is a ValueError -/
structure Num (F : Type) where
  /-- `float(text)` -/
  flt : Str → Option F
  /-- `int(text)` -/
  int : Str → Option Int

/-- a main set: set number ↦ rows (st_file.py:81) -/
abbrev Sets (F : Type) := List (Int × List (List F))

/-- the object: `main_data_sets` and `cols` (st_file.py:78, 99-101) -/
structure Obj (F : Type) where
  /-- `self.main_data_sets` -/
  main : List (Int × Sets F)
  /-- `self.cols` -/
  cols : List Str
deriving DecidableEq, Repr

/-- `line.split(';')[0].split()` (st_file.py:90) -/
def cells (l : Str) : List Str := words ((splitOn ';' l).headD [])

/-- the list of rows (st_file.py:90): IndexError when there are not as many lines -/
def rowLines (lines : List Str) (k : Int) : Except SErr (List (List Str)) :=
  if 0 < k ∧ (lines.length : Int) ≤ k then .error .index
  else .ok ((lines.tail.take k.toNat).map cells)

/-- `np.array(linelst, dtype=float)` (st_file.py:95): ValueError for a text which is no number and for
rows of different lengths -/
def array {F : Type} (φ : Num F) (ll : List (List Str)) : Except SErr (List (List F)) :=
  if ll.all (fun r => r.length = (ll.headD []).length) then
    match ll.mapM (fun ws => ws.mapM φ.flt) with
    | none => .error .value
    | some rows => .ok rows
  else .error .value

/-- `set_nr, no_rows = map(int, line.split()[:2])` (st_file.py:85) -/
def header {F : Type} (φ : Num F) (l : Str) : Except SErr (Int × Int) :=
  match (words l).take 2 with
  | [a, b] =>
    match φ.int a, φ.int b with
    | some n, some k => .ok (n, k)
    | _, _ => .error .value
  | _ => .error .value

/-- the loop over the sets of a main set (st_file.py:83-95): the sets read and the last `linelst` -/
def setLoop {F : Type} (φ : Num F) : List Str → Sets F → Option (List (List Str)) →
    Except SErr (Sets F × Option (List (List Str)))
  | [], d, last => .ok (d, last)
  | txt :: t, d, _ =>
    let lines := splitOn '\n' txt
    match header φ (lines.headD []) with
    | .error e => .error e
    | .ok (n, k) =>
      if n ∈ d.map Prod.fst then .error .assertion
      else
        match rowLines lines k with
        | .error e => .error e
        | .ok ll =>
          match array φ ll with
          | .error e => .error e
          | .ok rows => setLoop φ t (d ++ [(n, rows)]) (some ll)

/-- `int(mset.strip().split()[0])` (st_file.py:80) -/
def mainNr {F : Type} (φ : Num F) (txt : Str) : Except SErr Int :=
  match words (strip txt) with
  | [] => .error .index
  | w :: _ =>
    match φ.int w with
    | none => .error .value
    | some n => .ok n

/-- the loop over the main sets (st_file.py:79-96) -/
def mainLoop {F : Type} (φ : Num F) : List Str → List (Int × Sets F) → Option (List (List Str)) →
    Except SErr (List (Int × Sets F) × Option (List (List Str)))
  | [], d, last => .ok (d, last)
  | txt :: t, d, last =>
    match mainNr φ txt with
    | .error e => .error e
    | .ok n =>
      match setLoop φ (splitOn '$' txt).tail [] last with
      | .error e => .error e
      | .ok (sets, last') => mainLoop φ t (dset d n sets) last'

/-- `self.cols` from the number of columns of a set (st_file.py:98-103) -/
def colsOf (k : Nat) : Except SErr (List Str) :=
  if k = stc.length then .ok stc
  else if k = fpm.length then .ok fpm
  else .error .type

/-- `StFile(filename)` on the text of the file (st_file.py:73-103) -/
def read {F : Type} (φ : Num F) (txt : Str) : Except SErr (Obj F) :=
  match mainLoop φ (splitOn '#' txt).tail [] none with
  | .error e => .error e
  | .ok (d, last) =>
    match last with
    | none => .error .unbound
    | some [] => .error .index
    | some (r :: _) =>
      match colsOf r.length with
      | .error e => .error e
      | .ok cols => .ok ⟨d, cols⟩

/-- `HAWC2StFile._read` (hawc2_st_file.py:27-41) -/
def readFile {F : Type} (φ : Num F) (txt : Str) : Except SErr (Obj F) :=
  let ls := (splitOn '\n' txt).take 13
  if ls.any (fun l => startsWith l ['#']) && ls.any (fun l => startsWith l ['$']) then read φ txt
  else .error .wrongFormat

/-! ## Saving -/

/-- `s.center(w)`: the odd blank is on the left when the width is odd -/
def center (w : Nat) (s : Str) : Str :=
  let m := w - s.length
  let left := m / 2 + (m % 2) * (w % 2)
  List.replicate left ' ' ++ s ++ List.replicate (m - left) ' '

/-- `'%i' % n` -/
def showInt (n : Int) : Str := FastLine.showInt n

/-- a row: `(precision * ncols) % tuple(row)` (st_file.py:123); `fmt x` is `precision % x` -/
def rowText {F : Type} (fmt : F → Str) (r : List F) : Str := r.flatMap fmt

/-- `to_str` (st_file.py:121-123) -/
def toStr {F : Type} (fmt : F → Str) (rows : List (List F)) : Str := joinWith ['\n'] (rows.map (rowText fmt))

/-- `save` (st_file.py:130-161); `w` is `colwidth` (144), the length of the text of 1 -/
def save {F : Type} (fmt : F → Str) (w : Nat) (o : Obj F) : Str :=
  let sep := List.replicate (w * o.cols.length) '=' ++ ['\n']
  let colhead := o.cols.flatMap (center w) ++ ['\n']
  showInt o.main.length ++ " ; number of sets, Nset\n".toList ++
    o.main.flatMap (fun m => '#' :: showInt m.1 ++ " ; set number\n".toList ++
      m.2.flatMap (fun s => sep ++ colhead ++ sep ++
        ('$' :: showInt s.1 ++ ' ' :: showInt s.2.length ++ ['\n']) ++ toStr fmt s.2 ++ ['\n']))

/-! ## Data frames -/

/-- `col_reg` (hawc2_st_file.py:51) -/
def colReg : List Str := ["r_[m]", "m_[kg/m]", "x_cg_[m]", "y_cg_[m]", "ri_x_[m]", "ri_y_[m]", "x_sh_[m]", "y_sh_[m]", "E_[N/m^2]",
  "G_[N/m^2]", "I_x_[m^4]", "I_y_[m^4]", "I_p_[m^4]", "k_x_[-]", "k_y_[-]", "A_[m^2]", "pitch_[deg]", "x_e_[m]", "y_e_[m]"].map String.toList

/-- `col_fpm` (hawc2_st_file.py:52) -/
def colFpm : List Str := ["r_[m]", "m_[kg/m]", "x_cg_[m]", "y_cg_[m]", "ri_x_[m]", "ri_y_[m]", "pitch_[deg]", "x_e_[m]", "y_e_[m]",
  "K11", "K12", "K13", "K14", "K15", "K16", "K22", "K23", "K24", "K25", "K26", "K33", "K34", "K35", "K36", "K44", "K45", "K46",
  "K55", "K56", "K66"].map String.toList

/-- `'{}_{}'.format(mset, iset)` (hawc2_st_file.py:63) -/
def frameName (m s : Int) : Str := showInt m ++ '_' :: showInt s

/-- the data frame of a set (hawc2_st_file.py:58-63): ValueError when the number of columns is neither;
a set without rows is one-dimensional and `tab.shape[1]` raises IndexError -/
def frame {F : Type} (rows : List (List F)) : Except SErr (List Str × List (List F)) :=
  match rows with
  | [] => .error .index
  | r :: _ =>
    let col := if r.length = 19 then colReg else colFpm
    if r.length = col.length then .ok (col, rows) else .error .value

/-- `toDataFrame` (hawc2_st_file.py:50-64); keys of dictionaries are distinct, so that the assignments
only append (see `C116_names`) -/
def toDataFrame {F : Type} (o : Obj F) : Except SErr (List (Str × List Str × List (List F))) :=
  (o.main.flatMap (fun m => m.2.map (fun s => (m.1, s.1, s.2)))).mapM
    (fun t => (frame t.2.2).map (fun f => (frameName t.1 t.2.1, f)))

/-! ## Queries -/

/-- `self.main_data_sets[mset][set]` -/
def getSet {F : Type} (o : Obj F) (m s : Int) : Except SErr (List (List F)) :=
  match (dget o.main m).bind (fun sets => dget sets s) with
  | none => .error .key
  | some rows => .ok rows

/-- `tab[:, column]` -/
def column {F : Type} [Inhabited F] (rows : List (List F)) (c : Nat) : Except SErr (List F) :=
  match rows with
  | [] => .error .index
  | r :: _ => if c < r.length then .ok (rows.map (fun r => r.getD c default)) else .error .index

/-- `_value` at one radius (st_file.py:109-113) -/
def valueAt (o : Obj ℚ) (m s : Int) (c : Nat) (x : ℚ) : Except SErr ℚ :=
  match getSet o m s with
  | .error e => .error e
  | .ok rows =>
    match column rows 0, column rows c with
    | .ok r, .ok v =>
      match interp x (r.zip v) with
      | none => .error .value
      | some y => .ok y
    | .error e, _ => .error e
    | _, .error e => .error e

/-- `st.<name>(radius, mset, set)` (st_file.py:105-113): the function made for a column -/
def query (o : Obj ℚ) (name : Str) (x : ℚ) (m s : Int) : Except SErr ℚ :=
  if name ∈ o.cols then valueAt o m s (o.cols.idxOf name) x else .error .attribute

/-- `radius_st(None, mset, set)` (st_file.py:115-118) -/
def radii (o : Obj ℚ) (m s : Int) : Except SErr (List ℚ) :=
  match getSet o m s with
  | .error e => .error e
  | .ok rows => column rows 0

/-- `st.<name>(None, mset, set)`: the radii of the set are taken (st_file.py:111-113) -/
def queryAll (o : Obj ℚ) (name : Str) (m s : Int) : Except SErr (List ℚ) :=
  match radii o m s with
  | .error e => .error e
  | .ok r => r.mapM (fun x => query o name x m s)

/-- `np.argmin`: the first of the smallest; `best` is the smallest so far -/
def argminFrom {α : Type} (f : α → ℚ) (best : α) : List α → α
  | [] => best
  | a :: t => argminFrom f (if f a < f best then a else best) t

/-- `radius_st(radius, mset, set)` (st_file.py:115-119): `r[np.argmin(np.abs(r - radius))]` -/
def nearest (o : Obj ℚ) (m s : Int) (x : ℚ) : Except SErr ℚ :=
  match radii o m s with
  | .error e => .error e
  | .ok [] => .error .value
  | .ok (r :: t) => .ok (argminFrom (fun a => |a - x|) r t)

/-- `tab[:, column] = v` (st_file.py:128): one number, or as many as there are rows -/
def setColumn {F : Type} (rows : List (List F)) (c : Nat) (v : List F) : Except SErr (List (List F)) :=
  match rows with
  | [] => .error .index
  | r :: _ =>
    if c < r.length then
      match fitRow rows.length v with
      | none => .error .value
      | some v => .ok (List.zipWith (fun r x => r.set c x) rows v)
    else .error .index

/-- `set_value(mset_nr, set_nr, **{k: v})` for one name (st_file.py:125-128): ValueError of `index` for an
unknown name -/
def setValue {F : Type} (o : Obj F) (m s : Int) (k : Str) (v : List F) : Except SErr (Obj F) :=
  if k ∈ o.cols then
    match dget o.main m with
    | none => .error .key
    | some sets =>
      match dget sets s with
      | none => .error .key
      | some rows =>
        match setColumn rows (o.cols.idxOf k) v with
        | .error e => .error e
        | .ok rows' => .ok ⟨dset o.main m (dset sets s rows'), o.cols⟩
  else .error .value

end Verif.St
