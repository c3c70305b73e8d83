import Verif.Lemmas.Str
import Verif.Model.FastLine
/-! Specification side of C11–C13: which labels, values, descriptions are
considered (well-formedness), and the laws of Python floats. -/
namespace Verif.FastLine
open Verif.Py Verif.FastDict

/-- laws of Python's `float(s)` and `repr(x)` (trusted base): `float` inverts
`repr`; `repr` is one word of digits, `.`, `e`, signs, `inf`, `nan`; integer
texts are accepted by `float`; texts starting with a double quote and the texts
`True`, `False` are not. -/
structure PyFloat.Lawful (P : PyFloat) : Prop where
  parse_repr : ∀ x, P.parse (P.repr x) = some x
  repr_word : ∀ x, IsWord (P.repr x)
  repr_comma : ∀ x, ',' ∉ P.repr x
  repr_head : ∀ x, ∃ c r, P.repr x = c :: r ∧
    (c.isDigit = true ∨ c = 'i' ∨ c = 'n' ∨ (c = '-' ∧ r.head? ≠ some '-'))
  repr_not_int : ∀ x, strIsInt (P.repr x) = false
  parse_int : ∀ s, strIsInt s = true → (P.parse s).isSome = true
  parse_quote : ∀ s, P.parse ('"' :: s) = none
  parse_True : P.parse "True".toList = none
  parse_False : P.parse "False".toList = none

/-- a label that is read as a label rather than as an old value, a list item or a comment. -/
structure LabelOK (P : PyFloat) (lab : Str) : Prop where
  word : IsWord lab
  comma : ',' ∉ lab
  float : P.parse lab = none
  bool : strIsBool lab = false
  bang : bangColon lab = false

/-- the text `t` of a scalar value, made of the words `ws`: single blanks
between words; does not look like a comment; either a single word without comma
and not starting with a quote, or starting with a quote and such that the first
word ending with a quote is the last one. -/
structure TextOK (t : Str) (ws : List Str) : Prop where
  eq : t = joinWith [' '] ws
  ne : ws ≠ []
  word : ∀ w ∈ ws, IsWord w
  notComment : isCommentText t = false
  shape : (t.head? ≠ some '"' ∧ ',' ∉ t ∧ ∃ w, ws = [w]) ∨
    (t.head? = some '"' ∧ ∃ init last, ws = init ++ [last] ∧ last.getLast? = some '"' ∧
      ∀ w ∈ init, w.getLast? ≠ some '"')

/-- a value that is not a string. -/
def IsNum {F : Type} : Val F → Prop
  | .str _ => False
  | _ => True

/-- a string value that can be written on a line: see `TextOK`; in addition it
does not look like a number or a logical. -/
structure StrOK (P : PyFloat) (s : Str) : Prop where
  text : TextOK s (words s)
  notInt : strIsInt s = false
  notFloat : P.parse s = none
  notBool : strIsBool s = false

/-- a scalar value that can be written on a line before the label `lab`.  The
last condition excludes lines `end… of …`. -/
def ScalarOK (P : PyFloat) (lab : Str) : Val P.F → Prop
  | .str s => StrOK P s ∧ (startsWith (lower s) "end".toList = true → lab ≠ "of".toList)
  | _ => True

/-- a list of values that can be written on a line: at least two numbers or
logicals, the first one having less than 30 characters. -/
def ListOK (P : PyFloat) (vs : List (Val P.F)) : Prop :=
  2 ≤ vs.length ∧ (∀ v ∈ vs, IsNum v) ∧ ∀ v, vs.head? = some v → (showVal P v).length < 30

end Verif.FastLine
