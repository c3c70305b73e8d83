import Verif.Model.St
import Verif.Lemmas.HawcAe
import Verif.Lemmas.Yaml
import Verif.Py.Fmt
import Mathlib.Data.List.Forall2
import Mathlib.Tactic
/-!
# What a HAWC2 st file says
-/
namespace Verif.St
open Verif.Py
open Verif.HawcAe (dset dget padLeft)
open Verif.Rosco (fitRow)

/-- the line gives the numbers `r`, before a comment which may follow a semicolon -/
def RowSays {F : Type} (φ : Num F) (l : Str) (r : List F) : Prop :=
  ∃ a, (l = a ∨ ∃ c, l = a ++ ';' :: c) ∧ ';' ∉ a ∧ List.Forall₂ (fun w x => φ.flt w = some x) (words a) r

/-- the line starts with the two whole numbers `n` and `k` -/
def HeadSays {F : Type} (φ : Num F) (l : Str) (n k : Int) : Prop :=
  ∃ a b t, words l = a :: b :: t ∧ φ.int a = some n ∧ φ.int b = some k

/-- the text of a set: the line after the dollar, the lines of numbers, other lines; and what it says -/
structure SetText (F : Type) where
  first : Str
  lines : List Str
  more : List Str
  nr : Int
  rows : List (List F)

/-- its text, after the dollar -/
def SetText.text {F : Type} (s : SetText F) : Str := joinWith ['\n'] (s.first :: (s.lines ++ s.more))

/-- the set is well formed -/
def SetText.Ok {F : Type} (φ : Num F) (s : SetText F) : Prop :=
  (∀ l ∈ s.first :: (s.lines ++ s.more), '#' ∉ l ∧ '$' ∉ l ∧ '\n' ∉ l) ∧
  HeadSays φ s.first s.nr s.rows.length ∧ List.Forall₂ (RowSays φ) s.lines s.rows ∧
  ∃ k, ∀ r ∈ s.rows, r.length = k

/-- what is read from the set -/
def SetText.entry {F : Type} (s : SetText F) : Int × List (List F) := (s.nr, s.rows)

/-- the text of a main set: the rest of its first line, text before the first dollar, its sets -/
structure MainText (F : Type) where
  line : Str
  between : Str
  nr : Int
  sets : List (SetText F)

/-- its text, after the hash -/
def MainText.text {F : Type} (m : MainText F) : Str :=
  (m.line ++ '\n' :: m.between) ++ m.sets.flatMap (fun s => '$' :: s.text)

/-- the line starts with the whole number `n` -/
def NrSays {F : Type} (φ : Num F) (l : Str) (n : Int) : Prop := ∃ w t, words l = w :: t ∧ φ.int w = some n

/-- the main set is well formed -/
def MainText.Ok {F : Type} (φ : Num F) (m : MainText F) : Prop :=
  ('#' ∉ m.line ∧ '$' ∉ m.line) ∧ ('#' ∉ m.between ∧ '$' ∉ m.between) ∧ NrSays φ m.line m.nr ∧
  (∀ s ∈ m.sets, s.Ok φ) ∧ (m.sets.map SetText.nr).Nodup

/-- what is read from the main set -/
def MainText.entry {F : Type} (m : MainText F) : Int × Sets F := (m.nr, m.sets.map SetText.entry)

/-- the text of a file -/
def fileText {F : Type} (pre : Str) (ms : List (MainText F)) : Str := pre ++ ms.flatMap (fun m => '#' :: m.text)

/-- the last set of the file has rows of `k` numbers -/
def LastWidth {F : Type} (ms : List (MainText F)) (k : Nat) : Prop :=
  ∃ s, (ms.flatMap MainText.sets).getLast? = some s ∧ ∃ r t, s.rows = r :: t ∧ r.length = k

/-- where a set ends: at the end of the file, at a dollar or at a hash -/
def EndsSet (rest : Str) : Prop := rest = [] ∨ ∃ t, rest = '$' :: t ∨ rest = '#' :: t

/-- the lines of a set hold none of the marks -/
def PlainLines (ls : List Str) : Prop := ∀ l ∈ ls, '#' ∉ l ∧ '$' ∉ l ∧ '\n' ∉ l

/-- the text of a number for `save`: a blank at least, then a word which reads as the number -/
def Prints {F : Type} (φ : Num F) (fmt : F → Str) (x : F) : Prop :=
  ∃ j w, fmt x = List.replicate (j + 1) ' ' ++ w ∧ IsWord w ∧ ';' ∉ w ∧ '#' ∉ w ∧ '$' ∉ w ∧ φ.flt w = some x

/-- an object which `save` can write: main sets and sets with different numbers, rows of as many numbers in
each set, and the last set has 19 or 30 columns -/
def Saveable {F : Type} (o : Obj F) : Prop :=
  (o.main.map Prod.fst).Nodup ∧ (∀ m ∈ o.main, (m.2.map Prod.fst).Nodup ∧ ∀ s ∈ m.2, s.2 ≠ [] ∧ ∃ k, ∀ r ∈ s.2, r.length = k) ∧
  ∃ s, (o.main.flatMap Prod.snd).getLast? = some s ∧ ∃ r t, s.2 = r :: t ∧
    ((r.length = 19 ∧ o.cols = stc) ∨ (r.length = 30 ∧ o.cols = fpm))

/-- the numbers of the set: rows of as many numbers as there are names of columns, radii increase -/
def BeamSet (o : Obj ℚ) (m s : Int) (rows : List (List ℚ)) : Prop :=
  getSet o m s = .ok rows ∧ rows ≠ [] ∧ (∀ r ∈ rows, r.length = o.cols.length) ∧ Increasing (rows.map (fun r => r.getD 0 0)) ∧
  (o.cols = stc ∨ o.cols = fpm)

end Verif.St
