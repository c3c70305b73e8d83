import Verif.Model.StepWind
import Verif.Py.Dec
import Mathlib.Tactic.Linarith
import Mathlib.Tactic.FieldSimp
import Mathlib.Tactic.Ring
import Mathlib.Algebra.Order.Field.Rat
/-!
# C52: the step wind generator
-/
namespace Verif.StepWind

/-- start of step `i`: the durations before it -/
def start (T : Nat → ℚ) (t0 : ℚ) (i : Nat) : ℚ := t0 + ((List.range i).map T).sum

theorem start_succ (T : Nat → ℚ) (t0 : ℚ) (i : Nat) : start T t0 (i + 1) = start T t0 i + T i := by
  simp [start, List.range_succ]; ring

theorem loop_spec (S T : Nat → ℚ) (dt : ℚ) (n : Nat) (M : Mat) (t0 : ℚ) (k : Nat) (hk : k + 1 ≤ n)
    (h0 : M 0 0 = t0) (h1 : M 0 1 = S 0) :
    (loop S T dt n (M, t0) k).2 = start T t0 k ∧
    (∀ i, i ≤ k → (loop S T dt n (M, t0) k).1 (2 * i) 0 = start T t0 i ∧ (loop S T dt n (M, t0) k).1 (2 * i) 1 = S i) ∧
    (∀ i, i < k → (loop S T dt n (M, t0) k).1 (2 * i + 1) 0 = start T t0 (i + 1) - dt ∧
      (loop S T dt n (M, t0) k).1 (2 * i + 1) 1 = S i) ∧
    (∀ r c, 2 ≤ c → (loop S T dt n (M, t0) k).1 r c = M r c) := by
  induction k with
  | zero =>
    refine ⟨by simp [loop, start], ?_, by omega, fun _ _ _ => rfl⟩
    intro i hi
    obtain rfl : i = 0 := by omega
    exact ⟨by simpa [loop, start] using h0, h1⟩
  | succ k ih =>
    obtain ⟨i1, i2, i3, i4⟩ := ih (by omega)
    rw [loop]
    generalize loop S T dt n (M, t0) k = st at *
    obtain ⟨L, t⟩ := st
    simp only at i1 i2 i3 i4
    subst i1
    simp only [body, Mat.set]
    refine ⟨(start_succ T t0 k).symm, ?_, ?_, ?_⟩
    · intro i hi
      by_cases hik : i = k + 1
      · subst hik
        rw [start_succ]
        have e1 : 2 * (k + 1) = 2 * k + 2 := by ring
        rw [e1]
        have hlt : k < n - 1 := by omega
        simp [hlt]
      · have e1 : ¬ 2 * i = 2 * k + 2 := by omega
        have e2 : ¬ 2 * i = 2 * k + 1 := by omega
        simp only [e1, e2, false_and, if_false]
        exact i2 i (by omega)
    · intro i hi
      by_cases hik : i = k
      · subst hik
        rw [start_succ]
        simp
      · have e1 : ¬ 2 * i + 1 = 2 * k + 2 := by omega
        have e2 : ¬ 2 * i + 1 = 2 * k + 1 := by omega
        simp only [e1, e2, false_and, if_false]
        exact i3 i (by omega)
    · intro r c hc
      have e1 : ¬ c = 0 := by omega
      have e2 : ¬ c = 1 := by omega
      simp only [e1, e2, and_false, if_false]
      exact i4 r c hc

theorem length_tsteps (rnd : ℚ → ℚ) (t : TStep) (n : Nat) : (tsteps rnd t n).length = n := by
  cases t <;> simp [tsteps]

/-- the duration of step `i` of `n + 1`: the given one, or between the two given ones -/
def dur (rnd : ℚ → ℚ) (t : TStep) (n i : Nat) : ℚ :=
  match t with
  | .num t => t
  | .pair a b => if n = 0 then rnd a else rnd (((n - i : ℚ) * a + i * b) / n)

theorem tsteps_dur (rnd : ℚ → ℚ) (t : TStep) (n i : Nat) (h : i ≤ n) :
    (tsteps rnd t (n + 1)).getD i 0 = dur rnd t n i := by
  have hi : i < n + 1 := by omega
  cases t with
  | num t => simp [tsteps, dur, List.getD_eq_getElem?_getD, hi]
  | pair a b =>
    simp only [tsteps, dur, List.getD_eq_getElem?_getD, List.getElem?_map, List.getElem?_range hi, Option.map_some,
      Option.getD_some, linspaceAt]
    by_cases h0 : n = 0
    · rw [if_pos h0, if_pos (by omega)]
    · rw [if_neg h0, if_neg (by omega)]
      have : (n : ℚ) ≠ 0 := by exact_mod_cast h0
      congr 1
      simp only [Nat.add_sub_cancel]
      field_simp
      ring

/-- the table of a wind that holds speed `S i` in step `i` of duration `T i` -/
structure Table (S T : Nat → ℚ) (n nCol : Nat) (t0 dt tend : ℚ) (rows : List (List ℚ)) : Prop where
  len : rows.length = 2 * n
  cols : ∀ row ∈ rows, row.length = nCol
  /-- the speed of step `i` is held from its start to one time step before the next start -/
  held : ∀ i, i < n → ∃ r r', rows[2 * i]? = some r ∧ rows[2 * i + 1]? = some r' ∧
    r[0]? = some (start T t0 i) ∧ r[1]? = some (S i) ∧
    r'[0]? = some (if i + 1 = n then tend else start T t0 (i + 1) - dt) ∧ r'[1]? = some (S i)
  /-- all other columns are zero -/
  zero : ∀ row ∈ rows, ∀ c, 2 ≤ c → c < nCol → row[c]? = some 0

/-- what is generated, for all arguments with at least one step: `n` steps of the speeds
`WSmin + i*WSstep`, except that the last row has the speed `WSmax` -/
theorem stepWind_rows (rnd : ℚ → ℚ) (nCol : Nat) (a : Args) (n : Nat) (h0 : a.WSstep ≠ 0)
    (hn : arangeLen a.WSmin (a.WSmax + a.WSstep) a.WSstep = n + 1) :
    ∃ rows, stepWind rnd nCol a = .ok rows ∧
      ∃ M : Mat, rows = (List.range (2 * (n + 1))).map (fun r => (List.range nCol).map fun c => M r c) ∧
      (∀ i, i ≤ n → M (2 * i) 0 = start (fun i => (tsteps rnd a.tstep (n + 1)).getD i 0) a.tmin i ∧
        M (2 * i) 1 = a.WSmin + i * a.WSstep) ∧
      (∀ i, i < n → M (2 * i + 1) 0 = start (fun i => (tsteps rnd a.tstep (n + 1)).getD i 0) a.tmin (i + 1) - a.dt ∧
        M (2 * i + 1) 1 = a.WSmin + i * a.WSstep) ∧
      M (2 * n + 1) 0 = max a.tmax (start (fun i => (tsteps rnd a.tstep (n + 1)).getD i 0) a.tmin (n + 1)) ∧
      M (2 * n + 1) 1 = a.WSmax ∧ (∀ r c, 2 ≤ c → M r c = 0) := by
  have hlen : (arange a.WSmin (a.WSmax + a.WSstep) a.WSstep).length = n + 1 := by simp [arange, hn]
  have hS : ∀ i, i ≤ n → (arange a.WSmin (a.WSmax + a.WSstep) a.WSstep).getD i 0 = a.WSmin + i * a.WSstep := by
    intro i hi
    have : i < arangeLen a.WSmin (a.WSmax + a.WSstep) a.WSstep := by omega
    simp [arange, List.getD_eq_getElem?_getD, List.getElem?_range this]
  rw [stepWind, if_neg h0]
  simp only [hlen]
  rw [if_neg (by omega)]
  have h := loop_spec (fun i => (arange a.WSmin (a.WSmax + a.WSstep) a.WSstep).getD i 0)
    (fun i => (tsteps rnd a.tstep (n + 1)).getD i 0) a.dt (n + 1)
    (Mat.set (Mat.set (fun _ _ => 0) 0 0 a.tmin) 0 1 a.WSmin) a.tmin n (by omega) (by simp [Mat.set])
    (by rw [hS 0 (by omega)]; simp [Mat.set])
  simp only [Nat.add_sub_cancel]
  generalize loop _ _ _ _ _ n = st at *
  obtain ⟨L, t⟩ := st
  obtain ⟨h1, h2, h3, h4⟩ := h
  simp only at h1 h2 h3 h4
  subst h1
  have e : 2 * (n + 1) - 1 = 2 * n + 1 := by omega
  refine ⟨_, rfl, _, rfl, ?_, ?_, ?_, ?_, ?_⟩
  · intro i hi
    have e1 : ¬ 2 * i = 2 * n + 1 := by omega
    simp only [Mat.set, e, e1, false_and, if_false]
    exact ⟨(h2 i hi).1, by rw [(h2 i hi).2, hS i hi]⟩
  · intro i hi
    have e1 : ¬ 2 * i + 1 = 2 * n + 1 := by omega
    simp only [Mat.set, e, e1, false_and, if_false]
    exact ⟨(h3 i hi).1, by rw [(h3 i hi).2, hS i (by omega)]⟩
  · simp [Mat.set, e, start_succ]
  · simp [Mat.set, e]
  · intro r c hc
    have e1 : ¬ c = 0 := by omega
    have e2 : ¬ c = 1 := by omega
    simp only [Mat.set, e1, e2, and_false, if_false]
    rw [h4 r c hc]
    simp [Mat.set, e1, e2]

/-- number of steps when the range is a multiple of the step -/
theorem arangeLen_exact (a : Args) (n : Nat) (h0 : a.WSstep ≠ 0) (h : a.WSmax = a.WSmin + n * a.WSstep) :
    arangeLen a.WSmin (a.WSmax + a.WSstep) a.WSstep = n + 1 := by
  have : (a.WSmax + a.WSstep - a.WSmin) / a.WSstep = ((n + 1 : ℕ) : ℚ) := by
    rw [h]; field_simp; push_cast; ring
  rw [arangeLen, this, Int.ceil_natCast]
  rfl

/-- the table, with the durations of the model -/
theorem stepWind_table (rnd : ℚ → ℚ) (nCol : Nat) (hc : 2 ≤ nCol) (a : Args) (n : Nat) (h0 : a.WSstep ≠ 0)
    (h : a.WSmax = a.WSmin + n * a.WSstep) :
    ∃ rows, stepWind rnd nCol a = .ok rows ∧
      Table (fun i => a.WSmin + i * a.WSstep) (fun i => (tsteps rnd a.tstep (n + 1)).getD i 0) (n + 1) nCol a.tmin a.dt
        (max a.tmax (start (fun i => (tsteps rnd a.tstep (n + 1)).getD i 0) a.tmin (n + 1))) rows ∧
      (0 ≤ a.dt → (∀ t ∈ tsteps rnd a.tstep (n + 1), a.dt ≤ t) →
        (rows.map fun r => r.getD 0 0).Pairwise (· ≤ ·)) := by
  obtain ⟨rows, hr, M, hM, h1, h2, h3, h4, h5⟩ := stepWind_rows rnd nCol a n h0 (arangeLen_exact a n h0 h)
  generalize hT : (fun i => (tsteps rnd a.tstep (n + 1)).getD i 0) = T at *
  refine ⟨rows, hr, ⟨?_, ?_, ?_, ?_⟩, ?_⟩
  · simp [hM]
  · intro row hrow
    rw [hM] at hrow
    obtain ⟨r, -, rfl⟩ := List.mem_map.1 hrow
    simp
  · intro i hi
    have g : ∀ r, r < 2 * (n + 1) → rows[r]? = some ((List.range nCol).map fun c => M r c) := by
      intro r hr
      rw [hM, List.getElem?_map, List.getElem?_range hr]; rfl
    have g0 : ∀ r, ((List.range nCol).map fun c => M r c)[0]? = some (M r 0) := by
      intro r; rw [List.getElem?_map, List.getElem?_range (by omega)]; rfl
    have g1 : ∀ r, ((List.range nCol).map fun c => M r c)[1]? = some (M r 1) := by
      intro r; rw [List.getElem?_map, List.getElem?_range (by omega)]; rfl
    refine ⟨_, _, g _ (by omega), g _ (by omega), ?_, ?_, ?_, ?_⟩
    · rw [g0, (h1 i (by omega)).1]
    · rw [g1, (h1 i (by omega)).2]
    · by_cases hl : i = n
      · subst hl; rw [g0, h3, if_pos rfl]
      · rw [g0, (h2 i (by omega)).1, if_neg (by omega)]
    · by_cases hl : i = n
      · subst hl; rw [g1, h4, h]
      · rw [g1, (h2 i (by omega)).2]
  · intro row hrow c hc1 hc2
    rw [hM] at hrow
    obtain ⟨r, -, rfl⟩ := List.mem_map.1 hrow
    rw [List.getElem?_map, List.getElem?_range hc2]
    simp [h5 r c hc1]
  · intro hdt ht
    have hTn : ∀ i, i < n + 1 → a.dt ≤ T i := by
      intro i hi
      rw [← hT]
      have hl : i < (tsteps rnd a.tstep (n + 1)).length := by rw [length_tsteps]; exact hi
      show a.dt ≤ (tsteps rnd a.tstep (n + 1)).getD i 0
      rw [List.getD_eq_getElem?_getD, List.getElem?_eq_getElem hl, Option.getD_some]
      exact ht _ (List.getElem_mem hl)
    have hm : (rows.map fun r => r.getD 0 0) = (List.range (2 * (n + 1))).map fun r => M r 0 := by
      rw [hM, List.map_map]
      apply List.map_congr_left
      intro r _
      have : 0 < nCol := by omega
      simp [List.getD_eq_getElem?_getD, List.getElem?_range this]
    -- one row to the next
    have step : ∀ r, r + 1 < 2 * (n + 1) → M r 0 ≤ M (r + 1) 0 := by
      intro r hr
      obtain ⟨i, rfl | rfl⟩ : ∃ i, r = 2 * i ∨ r = 2 * i + 1 := ⟨r / 2, by omega⟩
      · rw [(h1 i (by omega)).1]
        by_cases hl : i = n
        · subst hl
          rw [h3, start_succ]
          have := hTn i (by omega)
          exact le_trans (by linarith) (le_max_right _ _)
        · rw [(h2 i (by omega)).1, start_succ]
          have := hTn i (by omega)
          linarith
      · have e : 2 * i + 1 + 1 = 2 * (i + 1) := by ring
        rw [e, (h2 i (by omega)).1, (h1 (i + 1) (by omega)).1]
        linarith
    have mono : ∀ d r, r + d < 2 * (n + 1) → M r 0 ≤ M (r + d) 0 := by
      intro d
      induction d with
      | zero => intro r _; exact le_refl _
      | succ d ih => intro r hr; exact le_trans (ih r (by omega)) (step (r + d) hr)
    rw [hm, List.pairwise_map]
    refine List.Pairwise.imp_of_mem ?_ (List.pairwise_lt_range)
    intro x y hx hy hxy
    rw [List.mem_range] at hy
    have := mono (y - x) x (by omega)
    rwa [show x + (y - x) = y by omega] at this

theorem start_congr (T T' : Nat → ℚ) (t0 : ℚ) (i : Nat) (h : ∀ j, j < i → T j = T' j) : start T t0 i = start T' t0 i := by
  unfold start
  rw [List.map_congr_left (fun j hj => h j (List.mem_range.1 hj))]

/-- **C52**: if the range of speeds is `n` steps, the table holds each speed `WSmin + i*WSstep`
from its start to one time step before the next; the times do not decrease if no time step is
negative or longer than a step.
(Missing for the full property: ranges that are no multiple of the step, see `C52_fails`;
float rounding.) -/
theorem C52_partial (rnd : ℚ → ℚ) (nCol : Nat) (hc : 2 ≤ nCol) (a : Args) (n : Nat) (h0 : a.WSstep ≠ 0)
    (h : a.WSmax = a.WSmin + n * a.WSstep) :
    ∃ rows, stepWind rnd nCol a = .ok rows ∧
      Table (fun i => a.WSmin + i * a.WSstep) (dur rnd a.tstep n) (n + 1) nCol a.tmin a.dt
        (max a.tmax (start (dur rnd a.tstep n) a.tmin (n + 1))) rows ∧
      (0 ≤ a.dt → (∀ i ≤ n, a.dt ≤ dur rnd a.tstep n i) →
        (rows.map fun r => r.getD 0 0).Pairwise (· ≤ ·)) := by
  obtain ⟨rows, h1, h2, h3⟩ := stepWind_table rnd nCol hc a n h0 h
  have hT : ∀ i, i ≤ n + 1 → start (fun i => (tsteps rnd a.tstep (n + 1)).getD i 0) a.tmin i =
      start (dur rnd a.tstep n) a.tmin i := fun i hi =>
    start_congr _ _ _ _ fun j hj => tsteps_dur rnd a.tstep n j (by omega)
  refine ⟨rows, h1, ⟨h2.len, h2.cols, ?_, h2.zero⟩, ?_⟩
  · intro i hi
    obtain ⟨r, r', g1, g2, g3, g4, g5, g6⟩ := h2.held i hi
    rw [hT i (by omega)] at g3
    rw [hT (n + 1) (by omega), hT (i + 1) (by omega)] at g5
    exact ⟨r, r', g1, g2, g3, g4, g5, g6⟩
  · intro hdt hd
    refine h3 hdt ?_
    intro t ht
    obtain ⟨i, hi, rfl⟩ := List.getElem_of_mem ht
    have hi' : i ≤ n := by rw [length_tsteps] at hi; omega
    have := hd i hi'
    rw [← tsteps_dur rnd a.tstep n i hi', List.getD_eq_getElem?_getD, List.getElem?_eq_getElem hi] at this
    simpa using this

/-- the two durations given are those of the first and of the last step -/
example (rnd : ℚ → ℚ) (a b : ℚ) (n : Nat) (hn : n ≠ 0) :
    dur rnd (.pair a b) n 0 = rnd a ∧ dur rnd (.pair a b) n n = rnd b := by
  have : (n : ℚ) ≠ 0 := by exact_mod_cast hn
  constructor <;> simp only [dur, if_neg hn] <;> congr 1 <;> field_simp <;> ring

/-- **C52**, without arguments: 23 steps of 100 s from 3 m/s to 25 m/s, each one held to half a
second before the next, the last one to 2300 s -/
theorem C52_default (rnd : ℚ → ℚ) : ∃ rows, stepWind rnd 8 {} = .ok rows ∧ rows.length = 46 ∧
    ∀ i : Nat, i < 23 → ∃ r r', rows[2 * i]? = some r ∧ rows[2 * i + 1]? = some r' ∧
      r[0]? = some (100 * (i : ℚ)) ∧ r[1]? = some (3 + (i : ℚ)) ∧
      r'[0]? = some (if i = 22 then 2300 else 100 * (i : ℚ) + 99.5) ∧ r'[1]? = some (3 + (i : ℚ)) := by
  obtain ⟨rows, h1, h2, -⟩ := C52_partial rnd 8 (by decide) {} 22 (by decide) (by norm_num)
  have hs : ∀ i : Nat, start (dur rnd (.num 100) 22) 0 i = 100 * (i : ℚ) := by
    intro i
    have : ∀ l : List Nat, (l.map (dur rnd (.num 100) 22)).sum = 100 * (l.length : ℚ) := by
      intro l
      induction l with
      | nil => simp
      | cons x l ih => simp only [List.map_cons, List.sum_cons, ih, List.length_cons, dur]; push_cast; ring
    unfold start
    rw [this, List.length_range]; ring
  refine ⟨rows, h1, h2.len, fun i hi => ?_⟩
  obtain ⟨r, r', g1, g2, g3, g4, g5, g6⟩ := h2.held i hi
  refine ⟨r, r', g1, g2, by rw [g3]; exact congrArg some (hs i), by rw [g4]; simp, ?_, by rw [g6]; simp⟩
  rw [g5]
  have e1 : start (dur rnd ({} : Args).tstep 22) ({} : Args).tmin (22 + 1) = 2300 := by
    show start (dur rnd (.num 100) 22) 0 (22 + 1) = 2300
    rw [hs]; norm_num
  have e2 : start (dur rnd ({} : Args).tstep 22) ({} : Args).tmin (i + 1) = 100 * ((i + 1 : ℕ) : ℚ) := hs (i + 1)
  rw [e1, e2]
  by_cases h : i = 22
  · rw [if_pos (by omega), if_pos h]; norm_num
  · rw [if_neg (by omega), if_neg h]; congr 1; push_cast; norm_num; ring

example : ({} : Args).WSstep ≠ 0 ∧ ({} : Args).WSmax = ({} : Args).WSmin + (22 : ℕ) * ({} : Args).WSstep ∧
    0 ≤ ({} : Args).dt ∧ ∀ i ≤ 22, ({} : Args).dt ≤ dur id ({} : Args).tstep 22 i := by
  refine ⟨by decide, by norm_num, by norm_num, ?_⟩
  intro i _
  simp only [dur]; norm_num

/-- C52 fails for every range that is no multiple of the step: the last interval begins with a
speed beyond `WSmax` and ends with `WSmax` -/
theorem C52_fails (rnd : ℚ → ℚ) (nCol : Nat) (hc : 2 ≤ nCol) (a : Args) (n : Nat) (hs : 0 < a.WSstep)
    (h1 : a.WSmin + n * a.WSstep < a.WSmax) (h2 : a.WSmax < a.WSmin + (n + 1 : ℕ) * a.WSstep) :
    ∃ rows r r', stepWind rnd nCol a = .ok rows ∧ rows[2 * (n + 1)]? = some r ∧ rows[2 * (n + 1) + 1]? = some r' ∧
      rows[2 * (n + 1) + 2]? = none ∧
      r[1]? = some (a.WSmin + (n + 1 : ℕ) * a.WSstep) ∧ r'[1]? = some a.WSmax ∧
      a.WSmax < a.WSmin + (n + 1 : ℕ) * a.WSstep := by
  have hlen : arangeLen a.WSmin (a.WSmax + a.WSstep) a.WSstep = (n + 1) + 1 := by
    rw [arangeLen]
    have : ⌈(a.WSmax + a.WSstep - a.WSmin) / a.WSstep⌉ = ((n + 2 : ℕ) : ℤ) := by
      rw [Int.ceil_eq_iff]
      push_cast at h2 ⊢
      constructor
      · rw [lt_div_iff₀ hs]; linarith
      · rw [div_le_iff₀ hs]; linarith
    rw [this]; rfl
  obtain ⟨rows, hr, M, hM, g1, g2, g3, g4, g5⟩ := stepWind_rows rnd nCol a (n + 1) hs.ne' hlen
  have g : ∀ r, r < 2 * (n + 1 + 1) → rows[r]? = some ((List.range nCol).map fun c => M r c) := by
    intro r hr
    rw [hM, List.getElem?_map, List.getElem?_range hr]; rfl
  have gc : ∀ r, ((List.range nCol).map fun c => M r c)[1]? = some (M r 1) := by
    intro r; rw [List.getElem?_map, List.getElem?_range (by omega)]; rfl
  refine ⟨rows, _, _, hr, g _ (by omega), g _ (by omega), ?_, ?_, ?_, h2⟩
  · rw [hM, List.getElem?_eq_none]; simp; omega
  · rw [gc, (g1 (n + 1) (by omega)).2]
  · rw [gc, g4]

example : ∃ n : ℕ, (3 : ℚ) + n * 2 < 10 ∧ (10 : ℚ) < 3 + (n + 1 : ℕ) * 2 := ⟨3, by norm_num, by norm_num⟩

/-- C52 fails: with a time step longer than a step the times decrease -/
theorem C52_times_fails :
    stepWind id 2 { WSstep := 1, WSmin := 3, WSmax := 4, tstep := .num 1, dt := 2, tmin := 0, tmax := 0 } =
      .ok [[0, 3], [-1, 3], [1, 4], [2, 4]] := by
  decide +kernel

/-- **C52**: no step, or no speed step, raises -/
theorem C52_errors (rnd : ℚ → ℚ) (nCol : Nat) (a : Args) :
    (a.WSstep = 0 → stepWind rnd nCol a = .error .zeroStep) ∧
    (0 < a.WSstep → a.WSmax + a.WSstep ≤ a.WSmin → stepWind rnd nCol a = .error .index) := by
  constructor
  · intro h; rw [stepWind, if_pos h]
  · intro h0 h
    have : arangeLen a.WSmin (a.WSmax + a.WSstep) a.WSstep = 0 := by
      rw [arangeLen, Int.toNat_eq_zero, Int.ceil_le]
      push_cast
      rw [div_le_iff₀ h0]; linarith
    rw [stepWind, if_neg h0.ne']
    simp only [arange, this, List.range_zero, List.map_nil, List.length_nil, if_true]

end Verif.StepWind
