import Verif.Model.FastRead
/-!
# Specification: the text of a table of an OpenFAST input file, as a user writes it

Nothing here mentions how the reader works, apart from the Python built-ins `words`
(`str.split()`) and `lower`, and from `N.parse` (`float`).
-/
namespace Verif.FastRead
open Verif.Py

/-- a text `t` without any of the characters `cs`, followed by nothing or by one of them and anything -/
def Followed (cs : List Char) (t l : Str) : Prop :=
  (∀ c ∈ cs, c ∉ t) ∧ (l = t ∨ ∃ c r, c ∈ cs ∧ l = t ++ c :: r)

/-- a row: its words, then possibly a comment introduced by `!` or `#` -/
def RowText (toks : List Str) (l : Str) : Prop :=
  ∃ t, t ≠ [] ∧ words t = toks ∧ Followed ['!', '#'] t l

/-- the line of the column names: the names, then possibly units in `[…]` or `(…)` or a comment; the
whole line may be commented by a leading `!` -/
def HeadText (names : List Str) (l : Str) : Prop :=
  (∃ t, words t = names ∧ Followed ['[', '(', '!', '#'] t l) ∨
  (∃ b t r, l = b ++ '!' :: r ∧ (∀ c ∈ b, isWs c = true) ∧ words t = names ∧ '!' ∉ t ∧ Followed ['[', '(', '#'] t r)

/-- one unit in parentheses -/
def inParens (u : Str) : Str := '(' :: u ++ [')']

/-- one unit in brackets -/
def inBrackets (u : Str) : Str := '[' :: u ++ [']']

/-- the text of a unit: one word without `( ) [ ] ! #` -/
def UnitWord (u : Str) : Prop :=
  u ≠ [] ∧ ∀ c ∈ u, isWs c = false ∧ c ∉ ['(', ')', '[', ']', '!', '#']

/-- the line of units: all in parentheses, all in brackets, or all bare -/
def UnitsText (us : List Str) (l : Str) : Prop :=
  (∀ u ∈ us, UnitWord u) ∧
  ∃ t, (words t = us.map inParens ∨ words t = us.map inBrackets ∨ words t = us) ∧ Followed ['!', '#'] t l

/-- the header lines of a table: names, and possibly units -/
inductive Heads (names : List Str) : Option (List Str) → List Str → Prop
  | one {h : Str} : HeadText names h → Heads names none [h]
  | two {us : List Str} {h u : Str} : HeadText names h → UnitsText us u → us.length = names.length →
      Heads names (some us) [h, u]

/-- a word that stands for a number: `true`, `print` for one, `false`, `noprint` for zero, whatever
their case, or a text accepted by `float` that contains none of them -/
def Stands (N : Num) (t : Str) (x : N.F) : Prop :=
  ((lower t = "true".toList ∨ lower t = "print".toList) ∧ N.parse ['1'] = some x) ∨
  ((lower t = "false".toList ∨ lower t = "noprint".toList) ∧ N.parse ['0'] = some x) ∨
  ((∀ k ∈ ["true".toList, "false".toList, "print".toList], ¬ k <:+: lower t) ∧ N.parse (lower t) = some x)

/-- `w` names: the first ones, completed by `Col` -/
def padNames (w : Nat) (xs : List Str) : List Str := (xs ++ List.replicate (w - xs.length) "Col".toList).take w

/-- the name of the last column is `NodeCnt`, whatever its case -/
abbrev EndsNodeCnt (names : List Str) : Prop := names.getLast?.map lower = some "nodecnt".toList

end Verif.FastRead
