import Verif.Model.WaveKin
import Verif.Lemmas.FlexDoc
import Verif.Props.Csv
/-!
# What a FLEX wave kinematics file says
-/
namespace Verif.WaveKin
open Verif.Py

/-- the text has the number `w` as its first one: no digits in front, and spaces around it -/
def First (t w : Str) : Prop :=
  ∃ gap rest, t = gap ++ w ++ rest ∧ (∀ c ∈ gap, c.isDigit = false) ∧ (gap = [] ∨ gap.getLast? = some ' ') ∧ FlexDoc.IsNum w ∧ (rest = [] ∨ rest.head? = some ' ')

/-- the numbers of the text are `ws`: there are no other digits, and they have spaces around them -/
inductive NumsIn : Str → List Str → Prop
  | nil (t : Str) (h : ∀ c ∈ t, c.isDigit = false) : NumsIn t []
  | cons (gap w rest : Str) (ws : List Str) (h1 : ∀ c ∈ gap, c.isDigit = false) (h2 : gap = [] ∨ gap.getLast? = some ' ') (h3 : FlexDoc.IsNum w)
      (h4 : rest = [] ∨ rest.head? = some ' ') (h : NumsIn rest ws) : NumsIn (gap ++ w ++ rest) (w :: ws)

/-- the numbers of the header, as texts -/
structure Head where
  crest : Str
  vel : Str
  acc : Str
  depth : Str
  hs : Str
  tp : Str
  spec : Str
  nDisp : Str
  nRel : Str
  displ : List Str
  rel : List Str

/-- the eleven lines of the header have these numbers -/
def HeadSays (ls : List Str) (h : Head) : Prop :=
  ∃ l0 l1 l2 l3 l4 l5 l6 l7 l8 l9 l10, ls = [l0, l1, l2, l3, l4, l5, l6, l7, l8, l9, l10] ∧ First (strip l2) h.crest ∧ First (strip l3) h.vel ∧ First (strip l4) h.acc ∧
    NumsIn (strip l5) [h.depth, h.hs, h.tp, h.spec] ∧ First (strip l6) h.nDisp ∧ NumsIn (strip l7) h.displ ∧ First (strip l8) h.nRel ∧ NumsIn (strip l9) h.rel

/-- lines with rows of `n` words; empty lines are skipped -/
def HasRows (ls : List Str) (n : Nat) (rows : List (List Str)) : Prop :=
  rows = (ls.filter fun l => strip l ≠ []).map words ∧ rows ≠ [] ∧ (∀ r ∈ rows, r.length = n) ∧ ∀ l ∈ ls, '"' ∉ l

/-- the first line of the file is not a number and a word -/
def Plain (T : Csv.Txt) (ls : List Str) : Prop :=
  ∀ l, ls.head? = some l → ∀ w0 w1 r, words l = w0 :: w1 :: r → ¬ (T.isInt w0 = true ∧ T.isAlpha w1 = true)

/-- columns: time and elevation, then, displacement by displacement, the velocities and the accelerations at the depths -/
def Columns {F : Type} (cols : List Str) (displ rel : List F) (u a : F → F → Str) : Prop :=
  cols.length = 2 + displ.length * (2 * rel.length) ∧ cols[0]? = some "Time_[s]".toList ∧ cols[1]? = some "WaveElev_[m]".toList ∧
    ∀ (j : Nat) (x : F) (i : Nat) (z : F), displ[j]? = some x → rel[i]? = some z →
      cols[2 + j * (2 * rel.length) + i]? = some (u z x) ∧ cols[2 + j * (2 * rel.length) + (rel.length + i)]? = some (a z x)

end Verif.WaveKin
