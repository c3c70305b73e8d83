import Verif.Model.Yaml
import Verif.Lemmas.FlexBld
import Verif.Lemmas.FlexPro
import Verif.Py.Dec
import Mathlib.Data.List.Forall2
import Mathlib.Tactic
/-!
# What a small YAML file says
-/
namespace Verif.Yaml
open Verif.Py
open Verif.Rosco (fitRow)
open Verif.FlexPro (setKey)

/-- the line `l` is `s`, blanks around it and a comment after it aside -/
def Reads (l s : Str) : Prop := ∃ a, (l = a ∨ ∃ more, l = a ++ '#' :: more) ∧ '#' ∉ a ∧ strip a = s

/-- the line is `- [c1, c2, …]`; the texts between the commas are `ws`, blanks aside -/
def DashRow (l : Str) (ws : List Str) : Prop :=
  ∃ blank cells, Reads l ('-' :: (blank ++ '[' :: (joinWith [','] cells ++ [']']))) ∧
    (∀ c ∈ blank, isWs c = true) ∧ (∀ w ∈ cells, ',' ∉ w ∧ '[' ∉ w ∧ ']' ∉ w) ∧ cells.map strip = ws

/-- the matrix `v` is given by the texts `rows`: integers if all of them are integers, real numbers if
one of the first row is no integer -/
def MatOk {F : Type} (φ : Num F) (rows : List (List Str)) (v : Val F) : Prop :=
  (∃ m, v = .ints m ∧ List.Forall₂ (List.Forall₂ (fun w x => φ.int w = some x)) rows m) ∨
  (∃ m, v = .floats m ∧ List.Forall₂ (List.Forall₂ (fun w x => φ.flt w = some x)) rows m ∧
    ∃ w ∈ rows.headD [], φ.int w = none)

/-- a part of a file -/
inductive Block (F : Type) where
  /-- a blank line or a comment -/
  | blank (l : Str)
  /-- `key: value` -/
  | pair (l key val : Str) (v : Val F)
  /-- `key:` and lines `- [..]` -/
  | mat (l key : Str) (ls : List Str) (rows : List (List Str)) (v : Val F)

/-- the lines of a part -/
def Block.lines {F : Type} : Block F → List Str
  | .blank l => [l]
  | .pair l _ _ _ => [l]
  | .mat l _ ls _ _ => l :: ls

/-- the parts are as they should be; keys have no colon and do not start with a dash -/
def Block.Ok {F : Type} (φ : Num F) : Block F → Prop
  | .blank l => Reads l []
  | .pair l key val v => Reads l (key ++ ':' :: val) ∧ ':' ∉ key ∧ ':' ∉ val ∧ key.head? ≠ some '-' ∧ strip val ≠ [] ∧
      (v = match φ.int (strip val), φ.flt (strip val) with
        | some i, _ => .int i
        | none, some x => .float x
        | none, none => .str (strip val))
  | .mat l key ls rows v => Reads l (key ++ [':']) ∧ ':' ∉ key ∧ key.head? ≠ some '-' ∧ List.Forall₂ DashRow ls rows ∧ rows ≠ [] ∧
      (∃ k, 1 ≤ k ∧ ∀ r ∈ rows, r.length = k ∧ ∀ w ∈ r, w ≠ []) ∧ MatOk φ rows v

/-- the key and value of a part -/
def Block.entry {F : Type} : Block F → Option (Str × Val F)
  | .blank _ => none
  | .pair _ key _ v => some (key, v)
  | .mat _ key _ _ v => some (key, v)

end Verif.Yaml
