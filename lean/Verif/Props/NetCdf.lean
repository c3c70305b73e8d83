import Verif.Lemmas.NetCdf
import Verif.Py.Dec
/-!
# Tables of NetCDF files

Property C256.
-/
namespace Verif.NetCdf
open Verif.Py

/-- **C256** fails: there are no tables for scalars and coordinates: the coordinates do not matter, and neither do variables of no dimension -/
theorem C256_fails {V : Type} (vars coords coords' : List (Str × Arr V)) (k : Str) (v : V) :
    toDataFrame ⟨vars, coords⟩ = toDataFrame ⟨vars, coords'⟩ ∧ toDataFrame ⟨(k, ⟨[], [v]⟩) :: vars, coords⟩ = toDataFrame ⟨vars, coords⟩ :=
  ⟨rfl, rfl⟩

/-- **C256**: every variable with one or two dimensions has a table with all its values in their places, and there are no other tables.
(Missing for the full property: scalars and coordinates.) -/
theorem C256_partial {V : Type} (s : Dataset V) :
    (∀ k n vals, (k, ⟨[n], vals⟩) ∈ s.vars → vals.length = n →
      ∃ t, (k, t) ∈ toDataFrame s ∧ t.width = 1 ∧ t.rows.length = n ∧ ∀ i, cell t i 0 = vals[i]?) ∧
    (∀ k n m vals, (k, ⟨[n, m], vals⟩) ∈ s.vars → vals.length = n * m →
      ∃ t, (k, t) ∈ toDataFrame s ∧ t.width = m ∧ t.rows.length = n ∧ (∀ r ∈ t.rows, r.length = m) ∧ ∀ i j, i < n → j < m → cell t i j = vals[i * m + j]?) ∧
    (∀ q ∈ toDataFrame s, ∃ a, (q.1, a) ∈ s.vars ∧ (a.shape.length = 1 ∨ a.shape.length = 2)) ∧
    ((toDataFrame s).map Prod.fst).Sublist (s.vars.map Prod.fst) := by
  refine ⟨?_, ?_, ?_, ?_⟩
  · intro k n vals hm hl
    refine ⟨⟨1, vals.map fun v => [v]⟩, frame_mem s k _ _ hm rfl, rfl, by rw [List.length_map, hl], ?_⟩
    intro i
    rw [cell, List.getElem?_map]
    cases vals[i]? <;> rfl
  · intro k n m vals hm hl
    refine ⟨⟨m, chunks m n vals⟩, frame_mem s k _ _ hm rfl, rfl, chunks_length m n vals, ?_, ?_⟩
    · intro r hr
      obtain ⟨i, hi⟩ := List.mem_iff_getElem?.1 hr
      have hin : i < n := by
        have := (List.getElem?_eq_some_iff.1 hi).1
        simp only [chunks_length] at this
        exact this
      rw [show (Table.mk m (chunks m n vals)).rows = chunks m n vals from rfl, chunks_get m n i vals hin] at hi
      simp only [Option.some.injEq] at hi
      subst hi
      rw [List.length_take, List.length_drop, hl]
      have : i * m + m ≤ n * m := by
        rw [← Nat.succ_mul]
        exact Nat.mul_le_mul_right m hin
      omega
    · intro i j hi hj
      rw [cell, show (Table.mk m (chunks m n vals)).rows = chunks m n vals from rfl, chunks_get m n i vals hi]
      simp only [Option.bind_some]
      rw [List.getElem?_take_of_lt hj, List.getElem?_drop]
  · intro q hq
    rw [toDataFrame, List.mem_filterMap] at hq
    obtain ⟨⟨k, a⟩, hm, he⟩ := hq
    rw [frame] at he
    split at he
    · rename_i n m hs
      simp only [Option.map_some, Option.some.injEq] at he
      subst he
      exact ⟨a, hm, Or.inr (by rw [hs]; rfl)⟩
    · rename_i n hs
      simp only [Option.map_some, Option.some.injEq] at he
      subst he
      exact ⟨a, hm, Or.inl (by rw [hs]; rfl)⟩
    · cases he
  · rw [toDataFrame]
    generalize s.vars = l
    induction l with
    | nil => exact List.Sublist.slnil
    | cons q l ih =>
      cases hf : frame q.2 with
      | none =>
        rw [List.filterMap_cons_none (by rw [hf]; rfl), List.map_cons]
        exact ih.cons _
      | some t =>
        rw [List.filterMap_cons_some (b := (q.1, t)) (by rw [hf]; rfl), List.map_cons, List.map_cons]
        exact ih.cons_cons _

/-! A concrete case: a vector, a matrix, and a field of three dimensions -/

example : toDataFrame (⟨[("u".toList, ⟨[3], [1, 2, 3]⟩), ("m".toList, ⟨[2, 2], [1, 2, 3, 4]⟩), ("b".toList, ⟨[1, 1, 2], [7, 8]⟩)], []⟩ : Dataset Nat) =
    [("u".toList, ⟨1, [[1], [2], [3]]⟩), ("m".toList, ⟨2, [[1, 2], [3, 4]]⟩)] := by decide +kernel

end Verif.NetCdf
