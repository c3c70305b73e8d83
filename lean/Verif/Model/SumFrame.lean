import Verif.Model.Summary
import Verif.Model.Hawc2

/-!
# The table of a SubDyn summary file

Models `subDynToDataFrame` of `weio/fast_summary_file.py` (225-253), on top of `getModes` (`Summary`).

A table is a list of columns, a column a label and its numbers; `none` is NaN.
-/
namespace Verif.Summary
open Verif.Py

/-- a column of a table -/
abbrev Column := Str × List (Option ℚ)

/-- the names of the directions (235) -/
def dirName (k : Nat) : Char := if k = 0 then 'x' else if k = 1 then 'y' else 'z'

/-- the label of a mode in a direction (234-235) -/
def modeLabel (pre : String) (s k : Nat) : Str :=
  pre.toList ++ ("Mode".toList ++ (Nat.toDigits 10 (s + 1) ++ dirName k :: "_[m]".toList))

/-- `disp[np.isnan(disp)]=0` (229) at a node, a direction and a mode -/
def dispAt (sh : Shapes) (ii k s : Nat) : ℚ :=
  ((((sh.disp[ii]?).bind fun d => d[k]?).bind fun d => d[s]?).bind id).getD 0

/-- a coordinate of a node (233) -/
def posAt (sh : Shapes) (ii k : Nat) : Option ℚ := ((sh.pos[ii]?).bind id).map (coord k)

/-- the displacements of all nodes (237) -/
def dispCol (sh : Shapes) (s k : Nat) : List (Option ℚ) := (List.range sh.pos.length).map fun ii => some (dispAt sh ii k s)

/-- the displaced positions of all nodes (233, 236) -/
def totCol (sh : Shapes) (s k : Nat) : List (Option ℚ) :=
  (List.range sh.pos.length).map fun ii => (posAt sh ii k).map fun p => p + dispAt sh ii k s

/-- the order of the columns: modes, and the directions of each (`np.moveaxis` and `reshape`, 232-237) -/
def places (ns : Nat) : List (Nat × Nat) := (List.range ns).flatMap fun s => (List.range 3).map fun k => (s, k)

/-- `(dfDisp != 0).any(axis=0)` (241-242) -/
def moves (sh : Shapes) (p : Nat × Nat) : Bool := (dispCol sh p.1 p.2).any fun v => decide (v ≠ some 0)

/-- `toDF(pos, disp, preffix)` (227-244); `ns` is the number of modes -/
def toDF (sh : Shapes) (ns : Nat) (pre : String) : List Column × List Column :=
  let kept := (places ns).filter (moves sh)
  (kept.map fun p => (modeLabel pre p.1 p.2, totCol sh p.1 p.2),
    kept.map fun p => (Hawc2.replace "Mode".toList "Disp".toList (modeLabel pre p.1 p.2), dispCol sh p.1 p.2))

/-- `pd.concat(..., axis=1)` (252): shorter columns are filled with NaN -/
def beside (cols : List Column) : List Column :=
  let n := (cols.map fun c => c.2.length).foldr max 0
  cols.map fun c => (c.1, c.2 ++ List.replicate (n - c.2.length) none)

/-- the columns of the positions (248-249) -/
def zxy (sh : Shapes) : List Column :=
  [("z_[m]".toList, sh.pos.map fun p => p.map (coord 2)), ("x_[m]".toList, sh.pos.map fun p => p.map (coord 0)),
    ("y_[m]".toList, sh.pos.map fun p => p.map (coord 1))]

/-- `subDynToDataFrame(data)` (225-253) with the closure variable `self` of `getModes` -/
def toDataFrame (E : Env) (self data : Data) : Except Err (List Column) :=
  match getModes E self data none (some 2) with
  | .error e => .error e
  | .ok m =>
    let g := toDF m.gy data.nR "Guyan"
    let c := toDF m.cb data.nCB "CB"
    .ok (beside (zxy m.gy ++ g.1 ++ c.1 ++ g.2 ++ c.2))

end Verif.Summary
