import Verif.Model.Hs2
import Verif.Lemmas.TurbSimTS
import Verif.Lemmas.Tecplot
import Verif.Lemmas.Hawc2Sel
import Verif.Lemmas.Bhawc
import Mathlib.Data.List.Forall2
import Mathlib.Data.List.TakeWhile
/-!
# What a HAWCStab2 file says
-/
namespace Verif.Hs2
open Verif.Py Verif.TurbSimTS

/-- a text with no white space at its ends -/
def Trimmed (t : Str) : Prop := t ≠ [] ∧ (∀ c, t.head? = some c → isWs c = false) ∧ ∀ c, t.getLast? = some c → isWs c = false

/-- white space -/
def Blank (t : Str) : Prop := ∀ c ∈ t, isWs c = true

/-- a column in a header: the number of the one before, its own name with the unit (without the bracket that ends it), white space between -/
structure Col where
  gap : Str
  num : Str
  mid : Str
  field : Str
  fill : Str

/-- its text, up to the bracket -/
def Col.text (c : Col) : Str := c.gap ++ (c.num ++ c.mid ++ c.field ++ c.fill)

/-- the parts are as they should be -/
def Col.Good (c : Col) : Prop :=
  Blank c.gap ∧ IsWord c.num ∧ Blank c.mid ∧ Trimmed c.field ∧ Blank c.fill ∧ ']' ∉ c.num ∧ ']' ∉ c.field

/-- in a header of a power file there is a space behind the number -/
def Col.Spaced (c : Col) : Prop := ∃ t, c.mid = ' ' :: t

/-- in a header of an induction file the number has two digits, or one digit and white space behind it -/
def Col.Two (c : Col) : Prop := c.num.length = 2 ∨ (c.num.length = 1 ∧ c.mid ≠ [])

/-- a first line: `#`, the first column (which has no number in front), the others, the rest (the number of the last column) -/
structure Head where
  lead : Str
  gap : Str
  field : Str
  fill : Str
  cols : List Col
  tail : Str

/-- its text -/
def Head.text (h : Head) : Str := h.lead ++ '#' :: (h.gap ++ (h.field ++ h.fill ++ [']'] ++ h.cols.flatMap (fun c => c.text ++ [']']) ++ h.tail))

/-- its parts are as they should be -/
def Head.Good (h : Head) : Prop :=
  Blank h.lead ∧ Blank h.gap ∧ Trimmed h.field ∧ ']' ∉ h.field ∧ Blank h.fill ∧ (∀ c ∈ h.cols, c.Good) ∧ ']' ∉ h.tail

/-- the names of the columns -/
def Head.fields (h : Head) : List Str := h.field :: h.cols.map Col.field

/-- a text with underscores for its spaces -/
def under (t : Str) : Str := t.map fun c => if c = ' ' then '_' else c

/-- a space or an underscore -/
def bl (c : Char) : Prop := c = ' ' ∨ c = '_'

/-- a name in an induction file: a name, perhaps a space, the unit in brackets (the second one left out); single spaces -/
def IndField (field name unit : Str) : Prop :=
  (field = name ++ '[' :: unit ∨ field = name ++ ' ' :: '[' :: unit) ∧ '[' ∉ name ∧ '[' ∉ unit ∧
    name.IsChain (fun a b => ¬ (bl a ∧ bl b)) ∧ (∀ c, name.getLast? = some c → ¬ bl c) ∧ unit.IsChain (fun a b => ¬ (bl a ∧ bl b))

/-- the lines have the rows of numbers; text from a `#` on is a comment, lines without words are skipped -/
inductive Rows {F : Type} (flt : Str → Option F) : List Str → List (List F) → Prop
  | nil : Rows flt [] []
  | skip (a b : Str) (ls : List Str) (rows : List (List F)) (ha : Blank a) (hb : b = [] ∨ b.head? = some '#') (h : Rows flt ls rows) :
      Rows flt ((a ++ b) :: ls) rows
  | row (a b : Str) (row : List F) (ls : List Str) (rows : List (List F)) (ha : '#' ∉ a) (hb : b = [] ∨ b.head? = some '#')
      (hw : words a ≠ []) (hr : (words a).mapM flt = some row) (h : Rows flt ls rows) : Rows flt ((a ++ b) :: ls) (row :: rows)

end Verif.Hs2
