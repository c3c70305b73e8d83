import Verif.Py.Str
/-!
# NetCDF files

`/repo/weio/netcdf_file.py:28-47`: tables of the variables of a data set.
Simplifications: what `xarray` reads from the bytes is given: variables and coordinates with their shapes and values
(in row-major order); `keys()` of a data set are the names of its variables, without the coordinates.
-/
namespace Verif.NetCdf
open Verif.Py

/-- an array: its shape, and its values in row-major order -/
structure Arr (V : Type) where
  shape : List Nat
  vals : List V
deriving DecidableEq, Repr

/-- a data set (netcdf_file.py:34) -/
structure Dataset (V : Type) where
  vars : List (Str × Arr V)
  coords : List (Str × Arr V)

/-- a table: the number of columns, which are numbered, and the rows -/
structure Table (V : Type) where
  width : Nat
  rows : List (List V)
deriving DecidableEq, Repr

/-- rows of so many values -/
def chunks (n : Nat) : Nat → List V → List (List V)
  | 0, _ => []
  | m + 1, l => l.take n :: chunks n m (l.drop n)

/-- `pd.DataFrame(data=a.values)` for one or two dimensions (netcdf_file.py:43, 45) -/
def frame (a : Arr V) : Option (Table V) :=
  match a.shape with
  | [n, m] => some ⟨m, chunks m n a.vals⟩
  | [_] => some ⟨1, a.vals.map fun v => [v]⟩
  | _ => none

/-- `_toDataFrame()` (netcdf_file.py:38-49) -/
def toDataFrame (s : Dataset V) : List (Str × Table V) :=
  s.vars.filterMap fun q => (frame q.2).map fun t => (q.1, t)

end Verif.NetCdf
