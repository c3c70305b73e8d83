import Mathlib.Data.List.Forall2
import Verif.Model.Rosco
/-!
# What a ROSCO performance file says

Written from the layout of the files: titles with a keyword, a line of numbers under the titles of
the three vectors; a line and the rows of numbers under the titles of the three tables; any other
lines in between.
-/
namespace Verif.Rosco
open Verif.Py Verif.FastLine

/-- vectors and tables -/
inductive Kind where
  | pitch | tsr | ws | cp | ct | cq
deriving DecidableEq

/-- the keyword of a title -/
def Kind.word : Kind → Str
  | .pitch => "Pitch angle".toList
  | .tsr => "TSR".toList
  | .ws => "Wind speed".toList
  | .cp => "Power".toList
  | .ct => "Thrust".toList
  | .cq => "Torque".toList

/-- all kinds; a line with several keywords is a title of the first -/
def kinds : List Kind := [.pitch, .tsr, .ws, .cp, .ct, .cq]

/-- a title of kind `k` -/
def IsTitle (k : Kind) (l : Str) : Prop :=
  k.word <:+: l ∧ ∀ k' ∈ kinds.takeWhile (· ≠ k), ¬ k'.word <:+: l

/-- a line of numbers -/
def Says {F : Type} (parse : Str → Option F) (l : Str) (v : List F) : Prop :=
  List.Forall₂ (fun w x => parse w = some x) (words l) v

/-- a part of a file -/
inductive Block (F : Type) where
  /-- a line which is no title -/
  | other (l : Str)
  /-- a vector: title and line of numbers -/
  | vec (k : Kind) (title l : Str) (v : List F)
  /-- a table: title, a line, the rows -/
  | tab (k : Kind) (title skip : Str) (ls : List Str) (m : List (List F))

/-- the lines of a part -/
def Block.lines {F : Type} : Block F → List Str
  | .other l => [l]
  | .vec _ t l _ => [t, l]
  | .tab _ t s ls _ => t :: s :: ls

/-- a part is well formed, for `nP` pitch angles and `nT` tip speed ratios -/
def Block.Ok {F : Type} (parse : Str → Option F) (nP nT : Nat) : Block F → Prop
  | .other l => ∀ k ∈ kinds, ¬ k.word <:+: l
  | .vec k t l v => (k = .pitch ∧ v.length = nP ∨ k = .tsr ∧ v.length = nT ∨ k = .ws) ∧ IsTitle k t ∧ Says parse l v
  | .tab k t _ ls m => (k = .cp ∨ k = .ct ∨ k = .cq) ∧ IsTitle k t ∧ List.Forall₂ (Says parse) ls m ∧
      m.length = nT ∧ ∀ r ∈ m, r.length = nP

/-- the part is a table -/
def Block.isTab {F : Type} : Block F → Prop
  | .tab .. => True
  | _ => False

/-- the last vector of a kind -/
def lastVec {F : Type} (k : Kind) (bs : List (Block F)) : Option (List F) :=
  (bs.filterMap (fun b => match b with
    | .vec k' _ _ v => if k' = k then some v else none
    | _ => none)).getLast?

/-- the last table of a kind -/
def lastTab {F : Type} (k : Kind) (bs : List (Block F)) : Option (List (List F)) :=
  (bs.filterMap (fun b => match b with
    | .tab k' _ _ _ m => if k' = k then some m else none
    | _ => none)).getLast?

end Verif.Rosco
