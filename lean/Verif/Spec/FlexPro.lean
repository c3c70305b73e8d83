import Verif.Model.FlexPro
import Verif.Py.Dec
import Mathlib.Data.List.Forall2
import Mathlib.Tactic
/-!
# What a FLEX profile file says
-/
namespace Verif.FlexPro
open Verif.Py
open Verif.Rosco (fitRow)

/-- a line of numbers -/
def Says {F : Type} (φ : Num F) (l : Str) (v : List F) : Prop :=
  List.Forall₂ (fun w x => φ.parse w = some x) (words l) v

/-- a polar as written: a line, and the rows -/
structure PolarText where
  head : Str
  rows : List Str

/-- a set as written: title, number of thicknesses, thicknesses, number of angles, polars -/
structure SetText where
  title : Str
  nThick : Str
  thick : Str
  nAlpha : Str
  polars : List PolarText

/-- the lines of a polar -/
def PolarText.lines (p : PolarText) : List Str := p.head :: p.rows

/-- the lines of a set -/
def SetText.lines (s : SetText) : List Str :=
  s.title :: s.nThick :: s.thick :: s.nAlpha :: s.polars.flatMap PolarText.lines

/-- the text `s` says the set `v`: the numbers announced are those given, one polar per thickness,
four numbers per row -/
structure SetText.Ok {F : Type} (φ : Num F) (s : SetText) (v : PSet F) : Prop where
  some_thick : v.thickness ≠ []
  nThick : φ.int (strip s.nThick) = some (v.thickness.length : Int)
  thick : Says φ (strip s.thick) v.thickness
  count : s.polars.length = v.thickness.length
  nAlpha : ∃ n : Nat, 1 ≤ n ∧ φ.int (strip s.nAlpha) = some (n : Int) ∧ ∀ p ∈ s.polars, p.rows.length = n
  rows : List.Forall₂ (fun p m => List.Forall₂ (Says φ) p.rows m ∧ ∀ r ∈ m, r.length = 4) s.polars v.polars
  heads : v.polarHeaders = s.polars.map (fun p => strip p.head)
  title : (∃ w r, lower w = "profile set".toList ∧ strip s.title = w ++ r ∧ v.header = r) ∨
    ((¬ ∃ w r, lower w = "profile set".toList ∧ strip s.title = w ++ r) ∧ v.header = strip s.title)

end Verif.FlexPro
