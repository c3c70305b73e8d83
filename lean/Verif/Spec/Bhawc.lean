import Verif.Props.Hawc2Sel
import Verif.Lemmas.HawcAe
import Verif.Py.Fmt
import Verif.Lemmas.FastBin
import Mathlib.Data.List.Forall2
import Mathlib.Tactic
/-!
# What BHAWC result files says
-/
namespace Verif.Hawc2Sel
open Verif.Py
open Verif.FastLine (showInt)

/-- a text without blanks at its ends -/
def Trim (s : Str) : Prop := s ≠ [] ∧ strip s = s

/-- the common part of the lines of BHAWC channels: number, description, name, unit, with blanks between them; the first
character of the unit is not in the text before it -/
structure ColLine (l : Str) (c : Channel) (p q r : Str) : Prop where
  text : ∃ a b num s, l = a ++ (num ++ s :: (p ++ (c.descr ++ (q ++ (c.name ++ (r ++ (c.unit ++ b))))))) ∧ IsWord num ∧ isWs s = true ∧
    (∀ x ∈ a ++ b, isWs x = true)
  descr : Trim c.descr
  name : Trim c.name
  unit : IsWord c.unit ∧ ∀ x ∈ c.unit.head?, x ∉ p ++ (c.descr ++ (q ++ (c.name ++ r)))
  blank : r ≠ []

/-- a line with tabs: blanks with a tab between description and name, and no tab inside them -/
def TabLine (l : Str) (c : Channel) : Prop :=
  ∃ p q r, ColLine l c p q r ∧ (∀ x ∈ p ++ (q ++ r), isWs x = true) ∧ '\t' ∈ q ∧ '\t' ∉ c.descr ++ c.name

/-- a line with spaces: between description and name more spaces, two at least, than anywhere inside them -/
def SpaceLine (l : Str) (c : Channel) : Prop :=
  ∃ p gap r, ColLine l c (List.replicate p ' ') (List.replicate gap ' ') (List.replicate r ' ') ∧ '\t' ∉ c.descr ++ c.name ∧
    ∃ k, 2 ≤ k ∧ k ≤ 14 ∧ k ≤ gap ∧ ¬ List.replicate k ' ' <:+: c.descr ∧ ¬ List.replicate k ' ' <:+: c.name

/-- what a BHAWC `.sel` file says: number of scans, time and channels -/
structure BhawcText (F : Type) where
  lines : List Str
  nrSc : Nat
  time : F
  chans : List Channel

/-- the text -/
def BhawcText.text (s : BhawcText F) : Str := HawcAe.unlines s.lines

/-- line `i`, counted from zero, is the last of the lines 5 to `last` with a word -/
def LastWith (lines : List Str) (w : Str) (last i : Nat) : Prop :=
  5 ≤ i ∧ i ≤ last ∧ last < lines.length ∧ (∃ l, lines[i]? = some l ∧ w <:+: lower l) ∧
  ∀ j l, i < j → j ≤ last → lines[j]? = some l → ¬ w <:+: lower l

/-- the text says this: the numbers are in the line after the one with "scans", the channels in the lines after the
one with "channel", one per line that is not blank, and one more line is looked at -/
structure BhawcText.Ok [Field F] (N : Num F) (s : BhawcText F) : Prop where
  line : ∀ l ∈ s.lines, '\n' ∉ l
  first : ∃ l, s.lines[0]? = some l ∧ "bhawc".toList <:+: lower l
  count : ∃ i l a b c r, LastWith s.lines "scans".toList 9 i ∧ s.lines[i + 1]? = some l ∧ words l = a :: b :: c :: r ∧
    N.int a = some (s.nrSc : Int) ∧ N.int b = some (s.chans.length : Int) ∧ N.flt c = some s.time
  time : s.time ≠ 0
  channels : ∃ j, LastWith s.lines "channel".toList 12 j ∧
    List.Forall₂ (fun l c => TabLine l c ∨ SpaceLine l c) (((s.lines.drop (j + 1)).take (s.chans.length + 1)).filter (fun l => words l ≠ [])) s.chans

/-- the times of the scans, equidistant, the last one at the given time -/
def BhawcText.times [Field F] (s : BhawcText F) : List F := (List.range s.nrSc).map (fun i : Nat => ((i : F) + 1) * s.time / s.nrSc)

/-- the channel of a saved BHAWC result: texts of 26 characters at most, the unit in brackets -/
def cutChannel (name unit descr : Str) : Channel := ⟨name.take 26, '[' :: (noBrackets unit ++ [']']), descr.take 26⟩

/-- a channel that can be saved in a BHAWC file: the texts are not blank, without tabs or brackets -/
structure Plain (c : Channel) : Prop where
  descr : Trim c.descr ∧ '\t' ∉ c.descr ∧ '[' ∉ c.descr
  name : Trim c.name ∧ '\t' ∉ c.name ∧ '[' ∉ c.name
  unit : IsWord c.unit

/-- a channel with a word in one of its texts -/
def Mentions (w : Str) (c : Channel) : Prop := w <:+: lower c.descr ∨ w <:+: lower c.name ∨ w <:+: lower c.unit

end Verif.Hawc2Sel
