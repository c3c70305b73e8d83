import Mathlib.Data.Rat.Defs
import Mathlib.Tactic.Linarith
import Mathlib.Tactic.FieldSimp
import Mathlib.Tactic.Ring
import Mathlib.Algebra.Order.Field.Rat
/-!
# `numpy.interp` and `numpy.searchsorted` over the rationals

`np.interp` is modelled by a scan from the left, which is what the binary search
of numpy finds whenever the abscissas increase; for other abscissas numpy's answer
is not specified and this model should not be used.
-/
namespace Verif.Py

/-- the part of `np.interp` at or to the right of the sample `(x0, y0)` -/
def interpFrom (x x0 y0 : ℚ) : List (ℚ × ℚ) → ℚ
  | [] => y0
  | (x1, y1) :: t => if x < x1 then y0 + (y1 - y0) / (x1 - x0) * (x - x0) else interpFrom x x1 y1 t

/-- `np.interp(x, xp, fp)` with `pts` the pairs of `xp`, `fp`; `none` is the
ValueError 'array of sample points is empty' -/
def interp (x : ℚ) : List (ℚ × ℚ) → Option ℚ
  | [] => none
  | (x0, y0) :: t => some (if x < x0 then y0 else interpFrom x x0 y0 t)

/-- `np.searchsorted(a, v)` (side left) for a sorted `a`: how many entries are
smaller than `v` -/
def searchsorted (a : List ℚ) (v : ℚ) : Nat := (a.takeWhile (fun x => x < v)).length

/-- abscissas strictly increase -/
def Increasing (xs : List ℚ) : Prop := xs.Pairwise (· < ·)

instance (xs : List ℚ) : Decidable (Increasing xs) := by unfold Increasing; infer_instance

theorem interpFrom_between (x x0 y0 : ℚ) (t : List (ℚ × ℚ)) (i : Nat) (a b c d : ℚ)
    (hinc : Increasing (((x0, y0) :: t).map Prod.fst))
    (ha : ((x0, y0) :: t)[i]? = some (a, b)) (hc : ((x0, y0) :: t)[i + 1]? = some (c, d))
    (h1 : a ≤ x) (h2 : x ≤ c) : interpFrom x x0 y0 t = b + (d - b) * ((x - a) / (c - a)) := by
  induction t generalizing x0 y0 i with
  | nil => simp at hc
  | cons p t ih =>
    obtain ⟨x1, y1⟩ := p
    have hinc' : Increasing (((x1, y1) :: t).map Prod.fst) := by
      unfold Increasing at hinc ⊢
      simp only [List.map_cons] at hinc ⊢
      exact (List.pairwise_cons.mp hinc).2
    have h01 : x0 < x1 := by
      unfold Increasing at hinc
      simp only [List.map_cons] at hinc
      exact (List.pairwise_cons.mp hinc).1 x1 (by simp)
    simp only [interpFrom]
    cases i with
    | zero =>
      simp only [List.getElem?_cons_zero, Option.some.injEq, Prod.mk.injEq] at ha
      simp only [zero_add, List.getElem?_cons_succ, List.getElem?_cons_zero, Option.some.injEq,
        Prod.mk.injEq] at hc
      obtain ⟨rfl, rfl⟩ := ha
      obtain ⟨rfl, rfl⟩ := hc
      split
      · ring
      · have hx : x = x1 := le_antisymm h2 (not_lt.mp ‹_›)
        subst hx
        have hne : x - x0 ≠ 0 := sub_ne_zero.mpr (ne_of_gt h01)
        rw [div_self hne]
        have : interpFrom x x y1 t = y1 := by
          cases t with
          | nil => rfl
          | cons q t =>
            obtain ⟨x2, y2⟩ := q
            have h12 : x < x2 := by
              unfold Increasing at hinc'
              simp only [List.map_cons] at hinc'
              exact (List.pairwise_cons.mp hinc').1 x2 (by simp)
            simp [interpFrom, h12]
        rw [this]
        ring
    | succ i =>
      have ha' : ((x1, y1) :: t)[i]? = some (a, b) := by simpa using ha
      have hc' : ((x1, y1) :: t)[i + 1]? = some (c, d) := by simpa using hc
      have hge : x1 ≤ a := by
        have hm : a ∈ ((x1, y1) :: t).map Prod.fst :=
          List.mem_map.mpr ⟨(a, b), List.mem_of_getElem? ha', rfl⟩
        simp only [List.map_cons, List.mem_cons] at hm
        rcases hm with rfl | hm
        · exact le_rfl
        · unfold Increasing at hinc'
          simp only [List.map_cons] at hinc'
          exact le_of_lt ((List.pairwise_cons.mp hinc').1 a hm)
      rw [if_neg (not_lt.mpr (le_trans hge h1))]
      exact ih x1 y1 i hinc' ha' hc'

/-- between two neighbouring samples, `np.interp` is the straight line -/
theorem interp_between (x : ℚ) (pts : List (ℚ × ℚ)) (i : Nat) (a b c d : ℚ)
    (hinc : Increasing (pts.map Prod.fst)) (ha : pts[i]? = some (a, b)) (hc : pts[i + 1]? = some (c, d))
    (h1 : a ≤ x) (h2 : x ≤ c) : interp x pts = some (b + (d - b) * ((x - a) / (c - a))) := by
  cases pts with
  | nil => simp at ha
  | cons p t =>
    obtain ⟨x0, y0⟩ := p
    have hge : x0 ≤ a := by
      have hm : a ∈ ((x0, y0) :: t).map Prod.fst :=
        List.mem_map.mpr ⟨(a, b), List.mem_of_getElem? ha, rfl⟩
      simp only [List.map_cons, List.mem_cons] at hm
      rcases hm with rfl | hm
      · exact le_rfl
      · unfold Increasing at hinc
        simp only [List.map_cons] at hinc
        exact le_of_lt ((List.pairwise_cons.mp hinc).1 a hm)
    simp only [interp]
    rw [if_neg (not_lt.mpr (le_trans hge h1)), interpFrom_between x x0 y0 t i a b c d hinc ha hc h1 h2]

/-- to the left of the samples, the first value -/
theorem interp_left (x a b : ℚ) (pts : List (ℚ × ℚ)) (hinc : Increasing (pts.map Prod.fst))
    (ha : pts[0]? = some (a, b)) (h : x ≤ a) : interp x pts = some b := by
  cases pts with
  | nil => simp at ha
  | cons p t =>
    obtain ⟨x0, y0⟩ := p
    simp only [List.getElem?_cons_zero, Option.some.injEq, Prod.mk.injEq] at ha
    obtain ⟨rfl, rfl⟩ := ha
    simp only [interp]
    split
    · rfl
    · have hx : x = x0 := le_antisymm h (not_lt.mp ‹_›)
      subst hx
      cases t with
      | nil => rfl
      | cons q t =>
        obtain ⟨x2, y2⟩ := q
        have h12 : x < x2 := by
          unfold Increasing at hinc
          simp only [List.map_cons] at hinc
          exact (List.pairwise_cons.mp hinc).1 x2 (by simp)
        simp [interpFrom, h12]

theorem interpFrom_right (x x0 y0 : ℚ) (t : List (ℚ × ℚ)) (h : ∀ p ∈ t, p.1 ≤ x) :
    some (interpFrom x x0 y0 t) = (((x0, y0) :: t).getLast?).map Prod.snd := by
  induction t generalizing x0 y0 with
  | nil => rfl
  | cons p t ih =>
    obtain ⟨x1, y1⟩ := p
    simp only [interpFrom]
    rw [if_neg (not_lt.mpr (h (x1, y1) (by simp))), ih x1 y1 (fun p hp => h p (by simp [hp]))]
    simp [List.getLast?_cons_cons]

/-- to the right of the samples, the last value -/
theorem interp_right (x a b : ℚ) (pts : List (ℚ × ℚ)) (hinc : Increasing (pts.map Prod.fst))
    (ha : pts.getLast? = some (a, b)) (h : a ≤ x) : interp x pts = some b := by
  cases pts with
  | nil => simp at ha
  | cons p t =>
    obtain ⟨x0, y0⟩ := p
    have hle : ∀ q ∈ (x0, y0) :: t, q.1 ≤ a := by
      obtain ⟨ys, hys⟩ := List.getLast?_eq_some_iff.mp ha
      intro q hq
      rw [hys] at hq hinc
      unfold Increasing at hinc
      rw [List.map_append, List.pairwise_append] at hinc
      rcases List.mem_append.mp hq with hq | hq
      · exact le_of_lt (hinc.2.2 q.1 (List.mem_map_of_mem hq) a (by simp))
      · simp at hq; subst hq; exact le_rfl
    simp only [interp]
    rw [if_neg (not_lt.mpr (le_trans (hle (x0, y0) (by simp)) h)),
      interpFrom_right x x0 y0 t (fun q hq => le_trans (hle q (by simp [hq])) h), ha]
    rfl

theorem interp_ne_none (x : ℚ) (pts : List (ℚ × ℚ)) (h : pts ≠ []) : interp x pts ≠ none := by
  cases pts with
  | nil => exact absurd rfl h
  | cons p t => simp [interp]

/-- position found by `searchsorted` in an increasing list -/
theorem searchsorted_mid (a : List ℚ) (v x y : ℚ) (i : Nat) (hinc : Increasing a)
    (hx : a[i]? = some x) (hy : a[i + 1]? = some y) (h1 : x < v) (h2 : v ≤ y) :
    searchsorted a v = i + 1 := by
  induction a generalizing i with
  | nil => simp at hx
  | cons c t ih =>
    have hp := List.pairwise_cons.mp hinc
    have hc : c ≤ x := by
      have hm := List.mem_of_getElem? hx
      rcases List.mem_cons.mp hm with h | h
      · exact le_of_eq h.symm
      · exact le_of_lt (hp.1 x h)
    have hlt : c < v := lt_of_le_of_lt hc h1
    unfold searchsorted
    rw [List.takeWhile_cons_of_pos (by simpa using hlt), List.length_cons]
    cases i with
    | zero =>
      cases t with
      | nil => simp at hy
      | cons d t =>
        simp only [zero_add, List.getElem?_cons_succ, List.getElem?_cons_zero, Option.some.injEq] at hy
        subst hy
        rw [List.takeWhile_cons_of_neg (by simpa using h2)]
        rfl
    | succ i =>
      have := ih i hp.2 (by simpa using hx) (by simpa using hy)
      unfold searchsorted at this
      rw [this]

theorem searchsorted_first (a : List ℚ) (v x : ℚ) (hx : a[0]? = some x) (h : v ≤ x) :
    searchsorted a v = 0 := by
  cases a with
  | nil => simp at hx
  | cons c t =>
    simp only [List.getElem?_cons_zero, Option.some.injEq] at hx
    subst hx
    unfold searchsorted
    rw [List.takeWhile_cons_of_neg (by simpa using h)]
    rfl

end Verif.Py
