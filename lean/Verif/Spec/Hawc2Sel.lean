import Verif.Model.Hawc2Sel
import Verif.Lemmas.HawcAe
import Verif.Py.Fmt
import Verif.Lemmas.FastBin
import Mathlib.Data.List.Forall2
import Mathlib.Tactic
/-!
# What HAWC2 and BHAWC result files says
-/
namespace Verif.Hawc2Sel
open Verif.Py
open Verif.FastLine (showInt)

/-- a channel -/
structure Channel where
  name : Str
  unit : Str
  descr : Str

/-- a line of a channel of a HAWC2 file: twelve characters, the name within 31, the unit within 11, and the
description -/
def ChanLine (l : Str) (c : Channel) : Prop :=
  ∃ p n u d, l = p ++ (n ++ (u ++ d)) ∧ p.length = 12 ∧ n.length = 31 ∧ u.length = 11 ∧
    strip n = c.name ∧ strip u = c.unit ∧ strip d = c.descr

/-- what a HAWC2 `.sel` file says: number of scans, time, format and channels; `rest` are the lines after them -/
structure SelText (F : Type) where
  title : Str
  head : List Str
  count : Str
  mid : List Str
  lines : List Str
  rest : List Str
  nrSc : Nat
  time : F
  format : Str
  chans : List Channel

/-- the text -/
def SelText.text (s : SelText F) : Str :=
  HawcAe.unlines (s.title :: (s.head ++ (s.count :: (s.mid ++ (s.lines ++ s.rest)))))

/-- the text says this -/
def SelText.Ok [Field F] (N : Num F) (s : SelText F) : Prop :=
  (∀ l ∈ s.title :: (s.head ++ (s.count :: (s.mid ++ (s.lines ++ s.rest)))), '\n' ∉ l) ∧
  ¬ "bhawc".toList <:+: lower s.title ∧ s.head.length = 7 ∧ s.mid.length = 3 ∧ List.Forall₂ ChanLine s.lines s.chans ∧
  (∃ a b c r, words s.count = a :: b :: c :: s.format :: r ∧ N.int a = some (s.nrSc : Int) ∧ N.int b = some (s.chans.length : Int) ∧
    N.flt c = some s.time) ∧ s.time ≠ 0

/-- the time of the scans, equidistant, the last one at the given time -/
def SelText.times [Field F] (s : SelText F) : List F := (List.range s.nrSc).map (fun i : Nat => ((i : F) + 1) * s.time / s.nrSc)

/-- a text with these rows of numbers, one row per line that is not blank, with possibly more columns -/
def DataText (N : Num F) (m : Nat) (text : Str) (rows : List (List F)) : Prop :=
  '#' ∉ text ∧ (∀ r ∈ rows, r.length = m) ∧
  List.Forall₂ (fun l r => ∃ ws more, words l = ws ++ more ∧ List.Forall₂ (fun w x => N.flt w = some x) ws r)
    ((splitOn '\n' text).filter (fun l => words l ≠ [])) rows

/-- sample `j` of channel `i` of a binary file with `n` scans: a 16-bit number -/
def sample (bytes : Bytes) (n i j : Nat) : Int := unpackInt 2 ((bytes.drop (2 * (i * n + j))).take 2)

/-- an object with `m` channels that can be saved: one row at least, a name, a unit and a description for each
column, no line break in them -/
structure CanSave (o : Obj F) (m : Nat) : Prop where
  rows : ∀ r ∈ o.data, r.length = m
  some_rows : o.data ≠ []
  names : o.names.length = m
  units : o.units.length = m
  descr : o.descr.length = m
  positive : 0 < m
  few : m < 10 ^ 11 ∧ o.data.length < 10 ^ 11
  line : ∀ s ∈ o.names ++ (o.units ++ o.descr), '\n' ∉ s

/-- the numbers of the object are printed and read: `rd` is the number as printed, `time` the last time, `time'` the
time as printed -/
structure Prints (N : Num F) (o : Obj F) (rd : F → F) (time time' : F) : Prop where
  int : ∀ n : Nat, N.int (showInt n) = some (n : Int)
  e8 : ∀ r ∈ o.data, ∀ x ∈ r, ∃ w, words (N.e8 x) = [w] ∧ N.flt w = some (rd x) ∧ '\n' ∉ N.e8 x ∧ '#' ∉ N.e8 x
  last : ∃ rest, o.data.getLast? = some (time :: rest)
  f3 : IsWord (N.f3 time) ∧ (N.f3 time).length ≤ 15 ∧ N.flt (N.f3 time) = some time'

/-- a unit without brackets -/
def noBrackets (u : Str) : Str := u.filter (fun c => c ∉ ['(', ')', '[', ']'])

end Verif.Hawc2Sel
