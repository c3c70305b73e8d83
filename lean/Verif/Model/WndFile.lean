import Verif.Model.Csv
import Verif.Model.AsciiComp
/-!
# Deterministic wind files — `/repo/weio/fast_wind_file.py:18-50`

The class is a CSV file with settings of its own; the reader refuses binary files first.  A file
is the list of its lines, as in `Csv`.
-/
namespace Verif.WndFile
open Verif.Py Verif.Csv

/-- `self.colNames` and `self.units` (fast_wind_file.py:29-30) -/
def names : List (String × String) :=
  [("Time", "[s]"), ("WindSpeed", "[m/s]"), ("WindDir", "[deg]"), ("VertSpeed", "[m/s]"), ("HorizShear", "[-]"),
   ("VertShear", "[-]"), ("LinVShear", "[-]"), ("GustSpeed", "[m/s]")]

/-- `Cols=['{}_{}'.format(c,u) for c,u in zip(self.colNames,self.units)]` (fast_wind_file.py:31) -/
def cols : List Str := names.map fun x => x.1.toList ++ '_' :: x.2.toList

/-- the header of a new object (fast_wind_file.py:33-36) -/
def header : List Str :=
  ["!Wind file.".toList,
   "!Time  Wind     Wind\tVert.       Horiz.      Vert.       LinV        Gust".toList,
   "!      Speed    Dir    Speed       Shear\t\tShear       Shear       Speed".toList]

/-- a new object (fast_wind_file.py:38) -/
def new : Obj := { sep := some (.ch ' '), commentChar := some '!', colNames := cols, header := header }

/-- `_read` (fast_wind_file.py:40-43) of an object -/
def read (T : Txt) (o : Obj) (lines : List Str) : Except Err Obj :=
  if AsciiComp.isBinary (some (joinWith ['\n'] lines)) then .error .wrongFormat else Csv.read T o lines

/-- `_write` (fast_wind_file.py:45-46) -/
def write (o : Obj) : Except Err (List Str) := Csv.write o

/-- `_toDataFrame` (fast_wind_file.py:49-50): names of the columns and rows -/
def toDataFrame (o : Obj) : List Str × List (List Cell) := (o.columns, o.data)

end Verif.WndFile
