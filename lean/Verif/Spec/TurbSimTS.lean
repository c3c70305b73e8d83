import Verif.Model.TurbSimTS
import Verif.Lemmas.St
import Verif.Lemmas.HawcAe
import Verif.Lemmas.Hawc2Sel
import Verif.Lemmas.Bhawc
import Verif.Lemmas.DeckRead
import Verif.Lemmas.Yaml
import Mathlib.Data.List.Forall2
import Mathlib.Tactic
/-!
# What a TurbSim time series file says
-/
namespace Verif.TurbSimTS
open Verif.Py
open Verif.St (Num)
open Verif.DeckRead (bind_ok ok_bind)

/-- the text has these lines; the last one may lack its end of line -/
def HasLines (s : Str) (ls : List Str) : Prop :=
  (∀ l ∈ ls, '\n' ∉ l) ∧ (s = HawcAe.unlines ls ∨ ∃ a l, ls = a ++ [l] ∧ l ≠ [] ∧ s = HawcAe.unlines a ++ l)

/-- the first word of the line is the whole number `n` -/
def Starts {F : Type} (φ : Num F) (l : Str) (n : Int) : Prop := ∃ w t, words l = w :: t ∧ φ.int w = some n

/-- the line speaks of `nComp`, in small or capital letters -/
def IsComp (l : Str) : Prop := "ncomp".toList <:+: lower l

/-- the line has the numbers of `r` -/
def RowSays {F : Type} (φ : Num F) (l : Str) (r : List F) : Prop := List.Forall₂ (fun w x => φ.flt w = some x) (words l) r

/-- the lines of a time series file, with what they say -/
structure TsText (F : Type) where
  head : List Str
  compLine : Str
  numLine : Str
  idLine : Str
  nComp : Int
  id : Int
  title : Str
  unit : Str
  pts : List (Str × F × F)
  sep : Str
  names : Str
  units : Str
  rows : List (Str × List F)
  rest : List Str

/-- the lines in the order of the file -/
def TsText.lines {F : Type} (t : TsText F) : List Str :=
  t.head ++ (t.compLine :: t.numLine :: t.idLine :: t.title :: t.unit ::
    (t.pts.map Prod.fst ++ (t.sep :: t.names :: t.units :: (t.rows.map Prod.fst ++ t.rest))))

/-- the lines say what they should: ten lines at most before the one which speaks of `nComp`, the three
counts, two coordinates for each point, as many numbers in each row, and nothing more or a blank line
after the rows -/
structure TsText.Ok {F : Type} (φ : Num F) (t : TsText F) : Prop where
  len : t.head.length ≤ 10
  head : ∀ l ∈ t.head, ¬ IsComp l
  comp : IsComp t.compLine
  nComp : Starts φ t.compLine t.nComp
  num : Starts φ t.numLine (t.pts.length : Int)
  id : Starts φ t.idLine t.id
  pts : ∀ p ∈ t.pts, RowSays φ p.1 [p.2.1, p.2.2]
  rows : ∀ r ∈ t.rows, r.2 ≠ [] ∧ RowSays φ r.1 r.2
  width : ∃ k, ∀ r ∈ t.rows, r.2.length = k
  rest : t.rest = [] ∨ ∃ b r, t.rest = b :: r ∧ ∀ c ∈ b, isWs c = true

/-- the text of the number is at least one blank and a word which is read as the number `rd x` -/
def Prints {F : Type} (φ : Num F) (e : F → Str) (rd : F → F) (x : F) : Prop :=
  ∃ j w, e x = List.replicate (j + 1) ' ' ++ w ∧ IsWord w ∧ φ.flt w = some (rd x)

/-- an object which can be written and read: header lines without blanks at their ends which do not speak
of `nComp`, three components at most, rows of as many numbers, whole numbers and numbers whose texts are
read -/
structure Writable {F : Type} (φ : Num F) (e : F → Str) (rd : F → F) (o : Obj F) : Prop where
  len : o.header.length ≤ 10
  head : ∀ l ∈ o.header, '\n' ∉ l ∧ strip l = l ∧ ¬ IsComp l
  comp : o.nComp ≤ 3
  ints : ∀ n : Int, φ.int (St.showInt n) = some n
  pts : ∀ p ∈ o.points, Prints φ e rd p.1 ∧ Prints φ e rd p.2
  rows : ∀ r ∈ o.data, r ≠ [] ∧ ∀ x ∈ r, Prints φ e rd x
  width : ∃ k, ∀ r ∈ o.data, r.length = k

/-- the object with its numbers rounded by their texts -/
def Obj.rounded {F : Type} (o : Obj F) (rd : F → F) (h : List Str) : Obj F :=
  ⟨h, o.nComp, o.id, o.points.map (fun p => (rd p.1, rd p.2)), o.data.map (List.map rd)⟩

/-- the name of the column of component `ic` of point `ip` in the data frame -/
def compName (ic ip : Nat) : Str :=
  "Point".toList ++ St.showInt ((ip : Int) + 1) ++ [['u', 'v', 'w'].getD ic 'w'] ++ "_[m/s]".toList

end Verif.TurbSimTS
