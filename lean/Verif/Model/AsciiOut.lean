import Verif.Model.HawcAe
/-!
# OpenFAST ASCII output files — `/repo/weio/fast_output_file.py`

`load_ascii_output` (161-185), the rest of `_read` (92-99), the ASCII part of `_write` (112-118)
and `_toDataFrame` (120-133).

A file is its text (decoding and other ends of line than `\n` are not modelled). `float` and the
formats `.4f`, `.3e` are parameters. `np.loadtxt` is modelled by `loadtxt`: blank lines are
skipped, a line is cut at the comment mark, rows of different lengths are a ValueError, the result
is squeezed.
-/
namespace Verif.AsciiOut
open Verif.Py

/-- `float(s)`, `'{:.4f}'`, `'{:.3e}'` -/
structure Num (F : Type) where
  parse : Str → Option F
  f4 : F → Str
  e3 : F → Str

/-- exceptions: WrongFormatError, EmptyFileError, IndexError, TypeError, ValueError -/
inductive Err where
  | wrongFormat
  | emptyFile
  | index
  | type
  | value
deriving DecidableEq, Repr

/-- what `np.loadtxt` returns: a number, a vector or a matrix -/
inductive Arr (F : Type) where
  | num (x : F)
  | vec (l : List F)
  | mat (rows : List (List F))
deriving DecidableEq, Repr

/-- the object: `info['description']`, `info['attribute_names']`, `info['attribute_units']`, `data` -/
structure Obj (F : Type) where
  desc : List Str
  names : List Str
  units : Option (List Str)
  data : Arr F
deriving DecidableEq, Repr

/-! ## Reading -/

/-- `(l+' dummy').lower().split()[0] != 'time'` (:172), negated -/
def isTime (l : Str) : Bool := (words (lower (l ++ " dummy".toList))).head? = some "time".toList

/-- the header loop (:168-177): header lines, the line of names, the lines after it; none when the
end of the file is reached -/
def header : List Str → Option (List Str × Str × List Str)
  | [] => none
  | l :: r =>
    if isTime l then some ([], l, r)
    else match header r with
      | none => none
      | some (h, n, r') => some (l :: h, n, r')

/-- `unit[1:-1]` (:178) -/
def inner (u : Str) : Str := (u.drop 1).dropLast

/-- characters removed from units (:99) -/
def bracket (c : Char) : Bool := c == '(' || c == ')' || c == '[' || c == ']'

/-- `re.sub(r'[()\[\]]','',u)` (:99) -/
def clean (u : Str) : Str := u.filter fun c => !bracket c

/-- a line without what follows the comment mark -/
def cut (l : Str) : Str :=
  match find "This".toList l with
  | none => l
  | some k => l.take k

/-- the rows of numbers of the remaining lines -/
def numRows (N : Num F) : List Str → Except Err (List (List F))
  | [] => .ok []
  | l :: r =>
    if words (cut l) = [] then numRows N r
    else match (words (cut l)).mapM N.parse with
      | none => .error .wrongFormat
      | some row =>
        match numRows N r with
        | .error e => .error e
        | .ok rows => .ok (row :: rows)

/-- `squeeze` of the rows read -/
def squeeze : List (List F) → Arr F
  | [] => .vec []
  | [[x]] => .num x
  | [r] => .vec r
  | rows => if rows.all (fun r => r.length = 1) then .vec rows.flatten else .mat rows

/-- `np.loadtxt(f, comments='This')` (:184); the ValueError becomes a WrongFormatError (:94-95) -/
def loadtxt (N : Num F) (lines : List Str) : Except Err (Arr F) :=
  match numRows N lines with
  | .error e => .error e
  | .ok rows => if rows.all (fun r => r.length = (rows.headD []).length) then .ok (squeeze rows) else .error .wrongFormat

/-- `self.data.shape[0]==0` (:96); `shape[0]` of a number raises IndexError -/
def noData : Arr F → Except Err Bool
  | .num _ => .error .index
  | .vec l => .ok (l.length == 0)
  | .mat rows => .ok (rows.length == 0)

/-- `_read` of an ASCII file (:78, :96-99, :161-185) -/
def read (N : Num F) (text : Str) : Except Err (Obj F) :=
  match header (HawcAe.readlines text) with
  | none => .error .wrongFormat
  | some (h, n, rest) =>
    match loadtxt N rest.tail with
    | .error e => .error e
    | .ok data =>
      match noData data with
      | .error e => .error e
      | .ok true => .error .emptyFile
      | .ok false => .ok ⟨h, words n, some (((words (rest.headD [])).map inner).map clean), data⟩

/-! ## Writing -/

/-- `'\t'.join(['{:>10s}'.format(c) for c in ...])` (:115-116) -/
def fields (l : List Str) : Str := joinWith ['\t'] (l.map (HawcAe.padLeft 10))

/-- one row (:118); `y[0]` of an empty row raises IndexError -/
def rowText (N : Num F) : List F → Except Err Str
  | [] => .error .index
  | t :: r => .ok (fields (N.f4 t :: r.map N.e3))

/-- the rows of the data (:118): `y[0]` of a number raises, and a number cannot be iterated -/
def rowTexts (N : Num F) : Arr F → Except Err (List Str)
  | .num _ => .error .type
  | .vec [] => .ok []
  | .vec _ => .error .index
  | .mat rows => rows.mapM (rowText N)

/-- what `_write` puts into an ASCII file (:112-118) -/
def write (N : Num F) (o : Obj F) : Except Err Str :=
  match o.units with
  | none => .error .type
  | some u =>
    match rowTexts N o.data with
    | .error e => .error e
    | .ok rows =>
      .ok (fields o.names ++ '\n' :: (fields (u.map fun x => '(' :: (x ++ [')'])) ++ '\n' :: joinWith ['\n'] rows))

/-! ## Export -/

/-- `u.replace('sec','s')` (:122) -/
def secToS : Str → Str
  | 's' :: 'e' :: 'c' :: r => 's' :: secToS r
  | c :: r => c :: secToS r
  | [] => []

/-- names of the columns (:121-124) -/
def columns (o : Obj F) : List Str :=
  match o.units with
  | some us => List.zipWith (fun n u => n ++ "_[".toList ++ secToS u ++ [']']) o.names us
  | none => o.names

/-- a data frame: names and rows -/
structure Frame (F : Type) where
  cols : List Str
  rows : List (List F)
deriving DecidableEq, Repr

/-- `pd.DataFrame(data=self.data,columns=cols)` (:129): the numbers of columns have to agree; a
vector is one column; a number cannot be used -/
def toDataFrame (o : Obj F) : Except Err (Frame F) :=
  match o.data with
  | .num _ => .error .value
  | .vec l => if (columns o).length = 1 then .ok ⟨columns o, l.map fun x => [x]⟩ else .error .value
  | .mat rows => if rows.all (fun r => r.length = (columns o).length) then .ok ⟨columns o, rows⟩ else .error .value

end Verif.AsciiOut
