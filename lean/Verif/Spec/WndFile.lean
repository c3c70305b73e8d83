import Verif.Lemmas.Str
import Verif.Model.WndFile
import Verif.Props.Csv
import Verif.Props.AsciiComp
import Verif.Py.Dec
/-!
# What deterministic wind files says
-/
namespace Verif.WndFile
open Verif.Py Verif.Csv

/-- the rows of a wind file: the words of its lines, up to an exclamation mark -/
def rows (lines : List Str) : List (List Str) :=
  (lines.map fun l => words (l.takeWhile (· ≠ '!'))).filter (· ≠ [])

/-- names of the columns of a wind file -/
def wndNames : List Str :=
  ["Time_[s]", "WindSpeed_[m/s]", "WindDir_[deg]", "VertSpeed_[m/s]", "HorizShear_[-]", "VertShear_[-]", "LinVShear_[-]",
   "GustSpeed_[m/s]"].map String.toList

/-- the first line `l0` of a text: printable characters without tabs, and not an integer and a word -/
structure First (T : Txt) (l0 : Str) : Prop where
  text : ∀ c ∈ l0, 32 ≤ c.toNat
  csv : ∀ w0 w1 r, words l0 = w0 :: w1 :: r → ¬ (T.isInt w0 = true ∧ T.isAlpha w1 = true)

/-- a wind file: its first line, its rows `r :: rs`, none longer than the first, and no quotes -/
structure Wnd (T : Txt) (l0 : Str) (ls : List Str) (r : List Str) (rs : List (List Str)) : Prop where
  first : First T l0
  nl : ∀ l ∈ l0 :: ls, '"' ∉ l
  rows : rows (l0 :: ls) = r :: rs
  width : ∀ x ∈ rs, x.length ≤ r.length

end Verif.WndFile
