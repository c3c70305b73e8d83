import Verif.Py.Str
/-!
# Comparison of HAWC2 files — `/repo/weio/wetb/hawc2/htc_contents.py:169-190, 345-351, 397-406, 478-484`

`compare` of sections, lines, output sections and sensors, with `compare_order=False`, as
`HTCFile.compare` calls it (`htc_file.py:501-504`).  The answer is the list of the marked texts:
the code joins them to one string, each line of a text with its mark in front and line ends after
it; the string is empty exactly when the list is.
Simplification: the texts `str(x)` are parameters (they are in `Htc`); a section has no contents
called `values` or `sensors`; names have no dots and no slashes.
-/
namespace Verif.HtcCompare
open Verif.Py

/-- a sensor (htc_contents.py:430-439) -/
structure Sensor (V : Type) where
  type : Str
  sensor : Str
  values : List V
  text : List Str
deriving DecidableEq

/-- contents of a file: a line with its values, a section, an output section with its sensors
(htc_contents.py:193-204, 295-310, 357-362); `text` are the lines of `str(x).strip()` -/
inductive Item (V : Type) where
  | line (values : List V) (text : List Str)
  | sec (kids : List (Str × Item V)) (text : List Str)
  | out (kids : List (Str × Item V)) (sensors : List (Sensor V)) (text : List Str)

/-- `str(x).strip().split("\n")` (htc_contents.py:181, 187, 189) -/
def Item.text : Item V → List Str
  | .line _ t => t
  | .sec _ t => t
  | .out _ _ t => t

/-- a marked text: the mark, `'+'` or `'-'`, and the lines (htc_contents.py:181, 187, 189) -/
abbrev Entry := Char × List Str

/-- `HTCSensor.compare` (htc_contents.py:478-484) -/
def cmpSensor [DecidableEq V] (a b : Sensor V) : List Entry :=
  if a.sensor ≠ b.sensor ∨ a.values ≠ b.values then [('+', a.text), ('-', b.text)] else []

/-- the sensors of an output section (htc_contents.py:399-404) -/
def cmpSensors [DecidableEq V] (mine other : List (Sensor V)) : List Entry :=
  (List.zipWith cmpSensor mine other).flatten
    ++ (mine.drop other.length).map (fun s => ('-', s.text))
    ++ (mine.drop mine.length).map (fun s => ('-', s.text))

mutual
/-- `compare` of two contents (htc_contents.py:345-351, 169-170, 397-406).  `none`: an exception,
since a line has no contents, a section no values, and a plain section no sensors. -/
def cmp [DecidableEq V] : Item V → Item V → Option (List Entry)
  | .line v t, .line v' t' => some (if v ≠ v' then [('+', t), ('-', t')] else [])
  | .line _ _, _ => none
  | .sec kids _, .sec kids' _ => cmpKids kids kids'
  | .sec kids _, .out kids' _ _ => cmpKids kids kids'
  | .sec _ _, .line _ _ => none
  | .out kids ss _, .out kids' ss' _ => (cmpKids kids kids').map (fun s => s ++ cmpSensors ss ss')
  | .out _ _ _, _ => none
/-- the loop over the names (htc_contents.py:173-190): `other` are the contents of the other
section whose names have not been taken out -/
def cmpKids [DecidableEq V] : List (Str × Item V) → List (Str × Item V) → Option (List Entry)
  | [], other => some (other.map (fun o => ('+', o.2.text)))
  | (k, a) :: mine, other =>
    match other.lookup k with
    | some b =>
      match cmp a b, cmpKids mine (other.filter (fun o => o.1 ≠ k)) with
      | some s, some r => some (s ++ r)
      | _, _ => none
    | none =>
      match cmpKids mine other with
      | some r => some (('-', a.text) :: r)
      | none => none
end

end Verif.HtcCompare
