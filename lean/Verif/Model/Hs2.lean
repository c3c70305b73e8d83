import Verif.Model.HawcAe
import Verif.Model.FastLine
import Verif.Model.FastRead
/-!
# HAWCStab2 power, induction and Campbell files

`/repo/weio/hawcstab2_pwr_file.py`, `/repo/weio/hawcstab2_ind_file.py`, `/repo/weio/hawcstab2_cmb_file.py`.  The value of a
text of a number is a parameter; so is what `CSVFile` reads from a Campbell file.
-/
namespace Verif.Hs2
open Verif.Py

/-- exceptions.  `e` is not bound (hawcstab2_pwr_file.py:33, hawcstab2_ind_file.py:35) and `BrokenFormatError` is not
imported (hawcstab2_pwr_file.py:46, 49; hawcstab2_ind_file.py:53, 56): NameError. -/
inductive Err where
  | wrong   -- WrongFormatError
  | name    -- NameError, UnboundLocalError
  | index   -- IndexError
  | value   -- ValueError
  | zeroDiv -- ZeroDivisionError
deriving DecidableEq, Repr

/-- the header line (hawcstab2_pwr_file.py:30-31, hawcstab2_ind_file.py:32-33) -/
def header (s : Str) : Str := strip ((HawcAe.readlines s).headD [])

/-- `num_and_cols` of the text behind `#`, with `p` in front (hawcstab2_pwr_file.py:35-36, hawcstab2_ind_file.py:37-38) -/
def pieces (p h : Str) : List Str := (splitOn ']' (p ++ strip h)).dropLast.map fun x => strip x ++ [']']

/-- a label of a power file (hawcstab2_pwr_file.py:37) -/
def pwrLabel (col : Str) : Str := replaceChar ' ' ['_'] (strip (joinWith [' '] (splitOn ' ' col).tail))

/-- a label of an induction file (hawcstab2_ind_file.py:39-40) -/
def indLabel (col : Str) : Str :=
  FastRead.replaceStr "__".toList ['_'] (replaceChar '[' ['_', '['] (replaceChar ' ' ['_'] (strip (col.drop 2))))

/-- the numbers of `np.loadtxt(.., skiprows=1)` (hawcstab2_pwr_file.py:44, hawcstab2_ind_file.py:51): comments are removed, lines
without words skipped; `none`: a word that is no number, or rows of different lengths -/
def loadtxt (flt : Str → Option F) (ls : List Str) : Option (List (List F)) :=
  match ((ls.map fun l => words (l.takeWhile (· ≠ '#'))).filter (· ≠ [])).mapM fun r => r.mapM flt with
  | none => none
  | some m => if m.all (fun r => r.length = (m.headD []).length) then some m else none

/-- what follows the labels (hawcstab2_pwr_file.py:43-49, hawcstab2_ind_file.py:50-56): `shape[1]` does not exist if there are
fewer than two rows or fewer than two columns, since `loadtxt` drops dimensions of one -/
def data (flt : Str → Option F) (s : Str) (n : Nat) : Except Err (List (List F)) :=
  match loadtxt flt (HawcAe.readlines s).tail with
  | none => .error .name
  | some m =>
    if m.length < 2 ∨ (m.headD []).length < 2 then .error .index
    else if (m.headD []).length ≠ n then .error .name
    else .ok m

/-- `_read` of a power file (hawcstab2_pwr_file.py:28-49): labels and rows -/
def readPwr (flt : Str → Option F) (s : Str) : Except Err (List Str × List (List F)) :=
  match header s with
  | '#' :: h =>
    let cols := (pieces "0 ".toList h).map pwrLabel
    if cols.length ≠ 15 then .error .wrong
    else match data flt s 15 with
      | .error e => .error e
      | .ok m => .ok (cols, m)
  | _ => .error .name

/-- `NumCol2Type` (hawcstab2_ind_file.py:42-46) -/
def indType (n : Nat) : Option Str :=
  if n = 38 then some "ind".toList else if n = 14 then some "fext".toList else if n = 18 then some "defl".toList else none

/-- the text of the wind speed in the name of the file (hawcstab2_ind_file.py:59) -/
def windText (filename : Str) : Str :=
  lstripBy (· = 'u') (rstripBy (fun c => c = '.' ∨ c = 'i' ∨ c = 'n' ∨ c = 'd') ((splitOn '_' (lower filename)).getLastD []))

/-- what is read from an induction file -/
structure Ind (F : Type) where
  kind : Str
  cols : List Str
  rows : List (List F)
  wsp : F
deriving DecidableEq, Repr

/-- `_read` of an induction file (hawcstab2_ind_file.py:30-59); `per1000 x` is `x/1000` -/
def readInd (flt : Str → Option F) (per1000 : F → F) (filename s : Str) : Except Err (Ind F) :=
  match header s with
  | '#' :: h =>
    let cols := (pieces "00".toList h).map indLabel
    match indType cols.length with
    | none => .error .wrong
    | some k => match data flt s cols.length with
      | .error e => .error e
      | .ok m => match flt (strip (windText filename)) with
        | none => .error .value
        | some w => .ok ⟨k, cols, m, per1000 w⟩
  | _ => .error .name

/-- the names `X1`, …, `Xn` (hawcstab2_cmb_file.py:21-22, 27) -/
def numbered (x : Char) (n : Int) : List Str := (List.range n.toNat).map fun i : Nat => x :: FastLine.showInt ((i : Int) + 1)

/-- the labels of a Campbell file (hawcstab2_cmb_file.py:18-31) whose first line is `h` and whose table has `w` columns (at
least one); `int` reads a whole number -/
def cmbCols (int : Str → Option Int) (h : Str) (w : Nat) : Except Err (List Str) :=
  match (words h).getLast? with
  | none => .error .index
  | some t => match int t with
    | none => .error .value
    | some n =>
      if n = 0 then .error .zeroDiv
      else
        let nCols : Int := (w : Int) - 1
        let cols := "Wind_[m/s]".toList :: (numbered 'F' n ++ (if nCols = 2 * n ∨ nCols = 3 * n then numbered 'D' n else []) ++
          (if nCols = 3 * n then numbered 'R' n else []))
        if cols.length = w then .ok cols else .error .value

end Verif.Hs2
