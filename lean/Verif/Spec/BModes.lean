import Verif.Model.BModes
import Verif.Lemmas.TurbSimTS
import Verif.Lemmas.FastHand
import Verif.Lemmas.Hawc2Sel
/-!
# What a BModes output file says
-/
namespace Verif.BModes
open Verif.Py Verif.TurbSimTS

/-- a line without a frequency: no `freq = ` in it -/
def Plain (l : Str) : Prop := ¬ "freq = ".toList <:+: l

/-- a line with the frequency `f`: something, `freq = ` (for the first time), the number in twelve characters or up to the end of the line -/
def HasFreq {F : Type} (flt : Str → Option F) (l : Str) (f : F) : Prop :=
  ∃ pre w post, l = pre ++ "freq = ".toList ++ w ++ post ∧ pre ≠ [] ∧ (∀ k < pre.length, ¬ "freq = ".toList <+: l.drop k) ∧
    (w.length = 12 ∨ (w.length < 12 ∧ post = [])) ∧ flt (strip w) = some f

/-- a line that ends a table: blank, or with `===` in front -/
def Ends (l : Str) : Prop := (∀ c ∈ l, isWs c = true) ∨ "===".toList <+: l

/-- a line with the numbers `row` -/
def HasRow {F : Type} (flt : Str → Option F) (l : Str) (row : List F) : Prop := ¬ Ends l ∧ (words l).mapM flt = some row

/-- a mode in a file: the line of its frequency, three lines, the rows -/
structure Mode (F : Type) where
  head : Str
  skip : Str × Str × Str
  lines : List Str
  freq : F
  rows : List (List F)

/-- the lines of the mode say its frequency and rows of `n` numbers -/
def Mode.Good {F : Type} (flt : Str → Option F) (m : Mode F) : Prop :=
  HasFreq flt m.head m.freq ∧ List.Forall₂ (HasRow flt) m.lines m.rows ∧ ∀ r ∈ m.rows, ∀ r' ∈ m.rows, r.length = r'.length

/-- its lines -/
def Mode.text {F : Type} (m : Mode F) : List Str := m.head :: m.skip.1 :: m.skip.2.1 :: m.skip.2.2 :: m.lines

/-- a part of a file: other lines, or a mode with the line that ends its table -/
inductive Part (F : Type) where
  | other (l : Str)
  | mode (m : Mode F) (stop : Str)

/-- the lines of the part are as they should be -/
def Part.Good {F : Type} (flt : Str → Option F) : Part F → Prop
  | .other l => Plain l
  | .mode m stop => m.Good flt ∧ Ends stop

/-- the lines of a part -/
def Part.text {F : Type} : Part F → List Str
  | .other l => [l]
  | .mode m stop => m.text ++ [stop]

/-- the modes of a part -/
def Part.modes {F : Type} : Part F → List (Mode F)
  | .other _ => []
  | .mode m _ => [m]

end Verif.BModes
