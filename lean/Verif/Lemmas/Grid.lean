import Mathlib.Data.List.Basic
import Mathlib.Tactic.Ring
/-!
# Lists made of blocks of one length
-/
namespace Verif

theorem flatMap_length_const {n : Nat} (f : γ → List δ) (l : List γ) (hf : ∀ x ∈ l, (f x).length = n) :
    (l.flatMap f).length = l.length * n := by
  induction l with
  | nil => simp
  | cons x l ih =>
    rw [List.flatMap_cons, List.length_append, hf x List.mem_cons_self, ih (fun y hy => hf y (List.mem_cons_of_mem _ hy)),
      List.length_cons]
    ring

theorem flatMap_getElem?_block {n : Nat} (f : γ → List δ) (l : List γ) (hf : ∀ x ∈ l, (f x).length = n) (a b : Nat)
    (ha : a < n) (hb : b < l.length) : (l.flatMap f)[b * n + a]? = (f l[b])[a]? := by
  induction l generalizing b with
  | nil => simp at hb
  | cons x l ih =>
    rw [List.flatMap_cons]
    have hx := hf x List.mem_cons_self
    cases b with
    | zero => rw [Nat.zero_mul, Nat.zero_add, List.getElem?_append_left (by rw [hx]; omega)]; simp
    | succ b =>
      rw [List.getElem?_append_right (by rw [hx, Nat.succ_mul]; omega), hx]
      have hb' : b < l.length := by simpa using hb
      rw [show (b + 1) * n + a - n = b * n + a by rw [Nat.succ_mul]; omega,
        ih (fun y hy => hf y (List.mem_cons_of_mem _ hy)) b hb']
      simp

/-- `b * n + a` with `a < n` runs over all numbers below `m * n` -/
theorem block_index {m n j : Nat} (h : j < m * n) : j / n < m ∧ j % n < n ∧ j / n * n + j % n = j := by
  have hn : 0 < n := by
    rcases Nat.eq_zero_or_pos n with rfl | hn
    · simp at h
    · exact hn
  refine ⟨Nat.div_lt_of_lt_mul (by rwa [Nat.mul_comm] at h), Nat.mod_lt _ hn, ?_⟩
  have := Nat.div_add_mod j n
  rw [Nat.mul_comm] at this
  exact this

theorem block_lt {m n a b : Nat} (ha : a < n) (hb : b < m) : b * n + a < m * n := by
  calc b * n + a < b * n + n := by omega
    _ = (b + 1) * n := by ring
    _ ≤ m * n := Nat.mul_le_mul_right _ hb

end Verif
