import Verif.Model.Sheets
import Verif.Lemmas.Str
import Mathlib.Data.List.Forall2
import Mathlib.Algebra.Order.Field.Basic
import Mathlib.Algebra.Order.Field.Rat
import Mathlib.Tactic.Ring
import Mathlib.Tactic.Linarith
/-!
# What an Excel, TDMS or RAAW file says
-/
namespace Verif.Sheets
open Verif.Py

/-- the rows with a value, in order -/
def valueRows {C : Type} (s : Sheet C) : Sheet C := s.filter fun r => decide (∃ c ∈ r, c.isSome)

/-- a table that can be given back by a sheet: each column has a name, each row a value -/
structure Full {C : Type} (f : Frame C) : Prop where
  some : f.cols ≠ []
  names : ∀ c ∈ f.cols, c.isSome
  width : ∀ r ∈ f.rows, r.length = f.cols.length
  values : ∀ r ∈ f.rows, ∃ c ∈ r, c.isSome

/-- the objects of a TDMS file -/
inductive Obj where
  | root
  | group (g : Str)
  | channel (g c : Str)

/-- a name in a path: quotes are doubled -/
def quoted (s : Str) : Str := '\'' :: s.flatMap (fun c => if c = '\'' then ['\'', '\''] else [c]) ++ ['\'']

/-- the path of an object -/
def Obj.path : Obj → Str
  | .root => ['/']
  | .group g => '/' :: quoted g
  | .channel g c => '/' :: quoted g ++ '/' :: quoted c

/-- names without slashes and quotes -/
def Obj.Plain : Obj → Prop
  | .root => True
  | .group g => '/' ∉ g ∧ '\'' ∉ g
  | .channel g c => '/' ∉ g ∧ '\'' ∉ g ∧ '/' ∉ c ∧ '\'' ∉ c

/-- the channels in order -/
def channelsOf (objs : List Obj) : List (Str × Str) := objs.filterMap fun
  | .channel g c => some (g, c)
  | _ => none

/-- the column of a signal in a table with `n` rows: its samples, then NaN -/
def ColumnIs {V : Type} (nan : V) (n : Nat) (x col : Str × List V) : Prop :=
  col.1 = x.1 ∧ x.2.length ≤ n ∧ col.2.length = n ∧ ∀ i < n, col.2[i]? = some ((x.2[i]?).getD nan)

end Verif.Sheets
