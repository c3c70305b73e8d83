import Verif.Lemmas.HawcAe
import Verif.Props.Mann
import Verif.Py.Fmt
import Verif.Py.Dec
/-!
# C30–C33: HAWC2 aerodynamic layout and profile coefficient files
-/
namespace Verif.HawcAe
open Verif.Py Verif.FastLine

/-- numbers that happen to be integers, written as integers: used in examples -/
def toy : Num Int where
  parse s := if strIsInt s then some (pyInt s) else none
  e17 := showInt
  d := showInt
  e15 := showInt
  f8 := showInt

theorem toy_ok (x : Int) : IsWord (showInt x) ∧ toy.parse (showInt x) = some x := by
  refine ⟨isWord_showInt x, ?_⟩
  simp [toy, strIsInt_showInt, pyInt_showInt]

theorem toy_row (a b c s : Int) : AeRowOk toy [a, b, c, s] :=
  ⟨a, b, c, s, rfl, fun x _ => toy_ok x, toy_ok s⟩

/-! ## C30 -/

/-- **C30, text round trip**: for every collection of sets with distinct numbers,
whose rows are four numbers, the first three of which survive `%.17e` (all doubles
do) and the last of which survives `%d` (integers do), reading the written file
gives the same sets: same numbers, same order, same rows. -/
theorem C30_roundtrip (N : Num F) (d : AeSets F) (hnd : (d.map Prod.fst).Nodup)
    (h : ∀ p ∈ d, ∀ r ∈ p.2, ∃ a b c s, r = [a, b, c, s] ∧
      (∀ x ∈ [a, b, c], IsWord (N.e17 x) ∧ N.parse (N.e17 x) = some x) ∧
      IsWord (N.d s) ∧ N.parse (N.d s) = some s) :
    aeRead N (aeWrite N d) = .ok d :=
  aeRead_write N d hnd h

example : aeRead toy (aeWrite toy [(1, [[0, 2, 100, 1], [5, 3, 40, 1]]), (4, []), (2, [[7, 8, -9, 2]])])
    = .ok [(1, [[0, 2, 100, 1], [5, 3, 40, 1]]), (4, []), (2, [[7, 8, -9, 2]])] :=
  C30_roundtrip toy _ (by decide) (by
    intro p hp r hr
    simp only [List.mem_cons, List.not_mem_nil, or_false] at hp
    rcases hp with rfl | rfl | rfl <;> simp at hr
    · rcases hr with rfl | rfl <;> exact toy_row _ _ _ _
    · subst hr; exact toy_row _ _ _ _)

theorem nextId_spec (keys : List Int) (n : Nat) (i : Int)
    (h : (keys.filter (fun k => i ≤ k)).toFinset.card ≤ n) :
    nextId keys n i ∉ keys ∧ i ≤ nextId keys n i ∧ ∀ j, i ≤ j → j < nextId keys n i → j ∈ keys := by
  induction n generalizing i with
  | zero =>
    have h0 : (keys.filter (fun k => i ≤ k)).toFinset = ∅ := Finset.card_eq_zero.mp (by omega)
    refine ⟨?_, le_rfl, fun j h1 h2 => ?_⟩
    · intro hm
      have : i ∈ (keys.filter (fun k => i ≤ k)).toFinset := by
        simpa [nextId] using hm
      rw [h0] at this
      simp at this
    · simp only [nextId] at h2; omega
  | succ n ih =>
    unfold nextId
    by_cases hk : i ∈ keys
    · rw [if_pos hk]
      have hlt : (keys.filter (fun k => i + 1 ≤ k)).toFinset.card
          < (keys.filter (fun k => i ≤ k)).toFinset.card := by
        apply Finset.card_lt_card
        refine ⟨?_, ?_⟩
        · intro x hx
          simp only [List.mem_toFinset, List.mem_filter, decide_eq_true_eq] at hx ⊢
          exact ⟨hx.1, by omega⟩
        · intro hsub
          have : i ∈ (keys.filter (fun k => i + 1 ≤ k)).toFinset := hsub (by simp [hk])
          simp at this
      obtain ⟨h1, h2, h3⟩ := ih (i + 1) (by omega)
      refine ⟨h1, by omega, fun j hj1 hj2 => ?_⟩
      by_cases hji : j = i
      · subst hji; exact hk
      · exact h3 j (by omega) hj2
    · rw [if_neg hk]
      exact ⟨hk, le_rfl, fun j h1 h2 => by omega⟩

theorem nextId_keys (keys : List Int) :
    nextId keys keys.length 1 ∉ keys ∧ 1 ≤ nextId keys keys.length 1 ∧
      ∀ j, 1 ≤ j → j < nextId keys keys.length 1 → j ∈ keys := by
  refine nextId_spec keys keys.length 1 ?_
  refine le_trans (List.toFinset_card_le _) (List.length_filter_le _ _)

theorem dget_append_new (d : List (Int × V)) (k : Int) (v : V) (h : k ∉ d.map Prod.fst) :
    dget (d ++ [(k, v)]) k = some v := by
  unfold dget
  have : d.find? (fun p => decide (p.1 = k)) = none := by
    rw [List.find?_eq_none]
    intro p hp
    simp only [decide_eq_true_eq]
    rintro rfl
    exact h (List.mem_map_of_mem hp)
  rw [List.find?_append, this]
  simp

theorem dget_append_old (d : List (Int × V)) (k j : Int) (v : V) (h : j ≠ k) :
    dget (d ++ [(k, v)]) j = dget d j := by
  unfold dget
  rw [List.find?_append]
  have : [(k, v)].find? (fun p => decide (p.1 = j)) = none := by simp [Ne.symm h]
  rw [this]
  simp

/-- **C30, insertion**: adding a set without giving its number picks the smallest
positive number not yet used, stores the rows there, and leaves all the other sets
(and their order) as they were. -/
theorem C30_add (d : AeSets F) (r c t s : List F) :
    (addSet d r c t s none).2 ∉ d.map Prod.fst ∧ 1 ≤ (addSet d r c t s none).2 ∧
    (∀ j, 1 ≤ j → j < (addSet d r c t s none).2 → j ∈ d.map Prod.fst) ∧
    (addSet d r c t s none).1 = d ++ [((addSet d r c t s none).2, aeColumns r c t s)] ∧
    dget (addSet d r c t s none).1 (addSet d r c t s none).2 = some (aeColumns r c t s) ∧
    ∀ j ∈ d.map Prod.fst, dget (addSet d r c t s none).1 j = dget d j := by
  have hk := nextId_keys (d.map Prod.fst)
  rw [List.length_map] at hk
  have hd : (addSet d r c t s none).1 = d ++ [((addSet d r c t s none).2, aeColumns r c t s)] := by
    simp only [addSet]
    exact dset_new _ _ _ hk.1
  refine ⟨hk.1, hk.2.1, hk.2.2, hd, ?_, ?_⟩
  · rw [hd]; exact dget_append_new _ _ _ hk.1
  · intro j hj
    rw [hd]
    refine dget_append_old _ _ _ _ ?_
    rintro rfl
    exact hk.1 hj

/-- Rows built from columns. -/
theorem C30_columns (r c t s : List F) (hc : c.length = r.length) (ht : t.length = r.length)
    (hs : s.length = r.length) (i : Nat) :
    (aeColumns r c t s)[i]? = (match r[i]?, c[i]?, t[i]?, s[i]? with
      | some a, some b, some e, some f => some [a, b, e, f]
      | _, _, _, _ => none) := by
  induction r generalizing c t s i with
  | nil => simp [aeColumns]
  | cons a r ih =>
    cases c with
    | nil => simp at hc
    | cons b c =>
      cases t with
      | nil => simp at ht
      | cons e t =>
        cases s with
        | nil => simp at hs
        | cons f s =>
          cases i with
          | zero => simp [aeColumns]
          | succ i =>
            simpa [aeColumns] using ih c t s (by simpa using hc) (by simpa using ht) (by simpa using hs) i

example : aeColumns [0, 5] [2, 3] [100, 40] [1, 1] = [[0, 2, 100, 1], [5, 3, 40, 1]] ∧
    (addSet ([(1, []), (2, []), (4, [])] : AeSets Int) [0, 5] [2, 3] [100, 40] [1, 1] none).2 = 3 := by
  decide

/-- adding several sets, one after the other -/
def addAll (d : AeSets F) : List (List F × List F × List F × List F) → AeSets F
  | [] => d
  | (r, c, t, s) :: l => addAll (addSet d r c t s none).1 l

/-- **C30, sequences of insertions**: after any number of insertions the sets that
were there are unchanged and in front, one set has been added per insertion, and
all numbers are distinct. -/
theorem C30_add_many (d : AeSets F) (l : List (List F × List F × List F × List F))
    (hnd : (d.map Prod.fst).Nodup) :
    ∃ ids : List Int, addAll d l = d ++ ids.zip (l.map (fun q => aeColumns q.1 q.2.1 q.2.2.1 q.2.2.2)) ∧
      ids.length = l.length ∧ (d.map Prod.fst ++ ids).Nodup ∧ ∀ i ∈ ids, 1 ≤ i := by
  induction l generalizing d with
  | nil => exact ⟨[], by simp [addAll], rfl, by simpa using hnd, by simp⟩
  | cons q l ih =>
    obtain ⟨r, c, t, s⟩ := q
    obtain ⟨h1, h2, h3, h4, h5, h6⟩ := C30_add d r c t s
    set i := (addSet d r c t s none).2 with hi
    have hnd' : (((addSet d r c t s none).1).map Prod.fst).Nodup := by
      rw [h4, List.map_append]
      simp only [List.map_cons, List.map_nil]
      rw [List.nodup_append]
      refine ⟨hnd, by simp, ?_⟩
      intro a ha b hb
      simp at hb
      subst hb
      rintro rfl
      exact h1 ha
    obtain ⟨ids, e1, e2, e3, e4⟩ := ih _ hnd'
    refine ⟨i :: ids, ?_, by simp [e2], ?_, ?_⟩
    · simp only [addAll]
      rw [e1, h4]
      simp
    · rw [h4] at e3
      simpa using e3
    · intro j hj
      rcases List.mem_cons.mp hj with rfl | hj
      · exact h2
      · exact e4 j hj

example : addAll ([(1, [[9, 9, 9, 9]]), (3, [])] : AeSets Int) [([0], [1], [2], [1]), ([4], [5], [6], [2])]
    = [(1, [[9, 9, 9, 9]]), (3, []), (2, [[0, 1, 2, 1]]), (4, [[4, 5, 6, 2]])] := by decide

/-- A given number replaces the set of that number: the documented way to change a
set, the only way an existing set is altered. -/
theorem C30_add_given (d : AeSets F) (r c t s : List F) (k j : Int) (h : j ≠ k) :
    dget (addSet d r c t s (some k)).1 j = dget d j := by
  simp only [addSet, dset]
  split
  · unfold dget
    induction d with
    | nil => rfl
    | cons p d ih =>
      rename_i hm
      by_cases hp : p.1 = k
      · have h1 : ¬ p.1 = j := fun hj => h (hj.symm.trans hp)
        simp only [List.map_cons, if_pos hp, List.find?_cons]
        have h2 : ¬ k = j := fun hj => h hj.symm
        simp only [h1, h2, decide_false]
        by_cases hm' : k ∈ d.map Prod.fst
        · exact ih hm'
        · congr 2
          have : d.map (fun p => if p.1 = k then (k, aeColumns r c t s) else p) = d := by
            refine (List.map_congr_left (g := id) ?_).trans (by simp)
            intro q hq
            have : q.1 ≠ k := fun hq' => hm' (hq' ▸ List.mem_map_of_mem hq)
            simp [this]
          rw [this]
      · simp only [List.map_cons, if_neg hp, List.find?_cons]
        split
        · rfl
        · refine ih ?_
          rcases List.mem_cons.mp hm with hm | hm
          · exact absurd hm.symm hp
          · exact hm
  · exact dget_append_old _ _ _ _ h

example : dget (addSet ([(1, [[9, 9, 9, 9]]), (3, [])] : AeSets Int) [0] [1] [2] [1] (some 3)).1 1
    = some [[9, 9, 9, 9]] := C30_add_given _ _ _ _ _ 3 1 (by decide)

/-! ## C31 -/

/-- **C31, chord and thickness**: in a table with increasing radii, at a radius
between two neighbouring rows the chord and the thickness are the linear
interpolation; outside they are those of the first / last row. -/
theorem C31_chord (t : List AeRow) (hinc : (t.map AeRow.r).Pairwise (· < ·)) (x : ℚ) :
    (∀ (i : Nat) p q, t[i]? = some p → t[i + 1]? = some q → p.r ≤ x → x ≤ q.r →
      chordAt t x = some (p.chord + (q.chord - p.chord) * ((x - p.r) / (q.r - p.r))) ∧
      thicknessAt t x = some (p.thick + (q.thick - p.thick) * ((x - p.r) / (q.r - p.r)))) ∧
    (∀ p, t[0]? = some p → x ≤ p.r → chordAt t x = some p.chord ∧ thicknessAt t x = some p.thick) ∧
    (∀ p, t.getLast? = some p → p.r ≤ x → chordAt t x = some p.chord ∧ thicknessAt t x = some p.thick) := by
  have e1 : Increasing ((t.map (fun p => (p.r, p.chord))).map Prod.fst) := by
    simpa [Increasing, Function.comp_def] using hinc
  have e2 : Increasing ((t.map (fun p => (p.r, p.thick))).map Prod.fst) := by
    simpa [Increasing, Function.comp_def] using hinc
  refine ⟨?_, ?_, ?_⟩
  · intro i p q hp hq h1 h2
    exact ⟨interp_between x _ i _ _ _ _ e1 (by simp [hp]) (by simp [hq]) h1 h2,
      interp_between x _ i _ _ _ _ e2 (by simp [hp]) (by simp [hq]) h1 h2⟩
  · intro p hp h
    exact ⟨interp_left x p.r _ _ e1 (by simp [hp]) h, interp_left x p.r _ _ e2 (by simp [hp]) h⟩
  · intro p hp h
    exact ⟨interp_right x p.r _ _ e1 (by simp [hp]) h, interp_right x p.r _ _ e2 (by simp [hp]) h⟩

def blade : List AeRow := [⟨0, 4, 100, 1⟩, ⟨10, 2, 40, 1⟩, ⟨20, 1, 20, 2⟩]

example : chordAt blade 0 = some 4 ∧ chordAt blade 5 = some 3 ∧ thicknessAt blade 15 = some 30 := by
  have h := C31_chord blade (by decide +kernel)
  refine ⟨?_, ?_, ?_⟩
  · exact ((h 0).2.1 ⟨0, 4, 100, 1⟩ rfl (by decide)).1
  · exact (((h 5).1 0 ⟨0, 4, 100, 1⟩ ⟨10, 2, 40, 1⟩ rfl rfl (by decide) (by decide +kernel)).1).trans
      (by norm_num)
  · exact (((h 15).1 1 ⟨10, 2, 40, 1⟩ ⟨20, 1, 20, 2⟩ rfl rfl (by decide +kernel) (by decide +kernel)).2).trans
      (by norm_num)

/-- **C31 fails** for `radius_ae`: at radius 0 it returns the whole column of
radii instead of the nearest one. -/
theorem C31_fails : radiusAe blade (some 0) = some (.inr [0, 10, 20]) ∧
    radiusAe blade (some 1) = some (.inl 0) := by
  decide +kernel

/-- **C31 (partial)** for `radius_ae`: at a radius other than 0 it is a radius of
the table, and none is nearer.  Missing: radius 0, see `C31_fails`. -/
theorem C31_partial (t : List AeRow) (x : ℚ) (hx : x ≠ 0) (ht : t ≠ []) :
    ∃ a ∈ t.map AeRow.r, radiusAe t (some x) = some (.inl a) ∧ ∀ b ∈ t.map AeRow.r, |a - x| ≤ |b - x| := by
  unfold radiusAe
  simp only [if_neg hx]
  have hne : (t.map AeRow.r).map (fun a => |a - x|) ≠ [] := by simpa using ht
  cases harg : Mann.argmin ((t.map AeRow.r).map (fun a => |a - x|)) with
  | none =>
    exfalso
    cases hl : (t.map AeRow.r).map (fun a => |a - x|) with
    | nil => exact hne hl
    | cons y ys => rw [hl] at harg; exact nomatch harg
  | some i =>
    obtain ⟨m, hm, hmin⟩ := Mann.argmin_spec _ i harg
    rw [List.getElem?_map] at hm
    cases hi : (t.map AeRow.r)[i]? with
    | none => rw [hi] at hm; exact nomatch hm
    | some a =>
      rw [hi] at hm
      simp only [Option.map_some, Option.some.injEq] at hm
      refine ⟨a, List.mem_of_getElem? hi, by simp only [hi, Option.map_some], ?_⟩
      intro b hb
      obtain ⟨j, hj⟩ := List.mem_iff_getElem?.mp hb
      have := (hmin j _ (by rw [List.getElem?_map, hj]; rfl)).1
      rwa [← hm] at this

example : ∃ a ∈ blade.map AeRow.r, radiusAe blade (some 14) = some (.inl a) ∧
    ∀ b ∈ blade.map AeRow.r, |a - 14| ≤ |b - 14| :=
  C31_partial blade 14 (by decide +kernel) (by decide)

theorem maxOf_last (l : List ℚ) (h : Increasing l) (m : ℚ) (hm : l.getLast? = some m) :
    maxOf l = some m := by
  cases l with
  | nil => simp at hm
  | cons a t =>
    simp only [maxOf]
    congr 1
    induction t generalizing a with
    | nil => simpa using hm
    | cons b t ih =>
      have hp := List.pairwise_cons.mp h
      rw [List.foldl_cons, max_eq_right (le_of_lt (hp.1 b (by simp)))]
      exact ih b hp.2 (by simpa [List.getLast?_cons_cons] using hm)

theorem increasing_get (l : List ℚ) (h : Increasing l) (i j : Nat) (a b : ℚ) (hi : l[i]? = some a)
    (hj : l[j]? = some b) (hij : i < j) : a < b := by
  unfold Increasing at h
  rw [List.pairwise_iff_getElem] at h
  obtain ⟨h1, rfl⟩ := List.getElem?_eq_some_iff.mp hi
  obtain ⟨h2, rfl⟩ := List.getElem?_eq_some_iff.mp hj
  exact h i j h1 h2 hij

/-- **C31 for the profile set**: in a table with increasing radii, the last of them
positive, `pc_set_nr` at a radius between two neighbouring rows is the set of one
of these two rows — of the row itself when the radius is that of a row. -/
theorem C31_pcset (t : List AeRow) (hinc : (t.map AeRow.r).Pairwise (· < ·))
    (l : AeRow) (hl : t.getLast? = some l) (hpos : 0 < l.r) (x : ℚ) (i : Nat) (p q : AeRow)
    (hp : t[i]? = some p) (hq : t[i + 1]? = some q) (h1 : p.r ≤ x) (h2 : x ≤ q.r) :
    (pcSetNr t x = some p.set ∨ pcSetNr t x = some q.set) ∧
    (x = p.r → pcSetNr t x = some p.set) ∧ (x = q.r → pcSetNr t x = some q.set) := by
  have hinc' : Increasing (t.map AeRow.r) := hinc
  have hmax : maxOf (t.map AeRow.r) = some l.r := maxOf_last _ hinc' _ (by simp [hl])
  have hpr : (t.map AeRow.r)[i]? = some p.r := by simp [hp]
  have hqr : (t.map AeRow.r)[i + 1]? = some q.r := by simp [hq]
  have hne : (t.map AeRow.r).map (fun a => |a - x|) ≠ [] := by
    intro h
    have : t = [] := by simpa using h
    subst this
    simp at hl
  cases harg : Mann.argmin ((t.map AeRow.r).map (fun a => |a - x|)) with
  | none =>
    exfalso
    cases hl : (t.map AeRow.r).map (fun a => |a - x|) with
    | nil => exact hne hl
    | cons y ys => rw [hl] at harg; exact nomatch harg
  | some k =>
    obtain ⟨m, hm, hmin⟩ := Mann.argmin_spec _ k harg
    rw [List.getElem?_map, List.getElem?_map] at hm
    cases hk : t[k]? with
    | none => rw [hk] at hm; exact nomatch hm
    | some w =>
      rw [hk] at hm
      simp only [Option.map_some, Option.some.injEq] at hm
      have hwr : (t.map AeRow.r)[k]? = some w.r := by simp [hk]
      have hminp := (hmin i |p.r - x| (by simp [hp])).1
      have hminq := (hmin (i + 1) |q.r - x| (by simp [hq])).1
      rw [← hm] at hminp hminq
      rw [abs_of_nonpos (by linarith : p.r - x ≤ 0)] at hminp
      rw [abs_of_nonneg (by linarith : 0 ≤ q.r - x)] at hminq
      -- the nearest row is one of the two
      have hki : k = i ∨ k = i + 1 := by
        rcases lt_trichotomy k i with h | h | h
        · have := increasing_get _ hinc' k i _ _ hwr hpr h
          rw [abs_of_nonpos (by linarith)] at hminp
          linarith
        · exact Or.inl h
        · rcases Nat.lt_or_ge (i + 1) k with h' | h'
          · have := increasing_get _ hinc' (i + 1) k _ _ hqr hwr h'
            rw [abs_of_nonneg (by linarith)] at hminq
            linarith
          · right; omega
      have hval : pcSetNr t x = if |w.r - x| < 1 / 10000 * l.r then some w.set
          else (t[max 1 (searchsorted (t.map AeRow.r) x) - 1]?).map AeRow.set := by
        unfold pcSetNr
        simp only [hmax, harg, hk]
      have hw : w = p ∨ w = q := by
        rcases hki with rfl | rfl
        · left; rw [hp] at hk; injection hk with hk; exact hk.symm
        · right; rw [hq] at hk; injection hk with hk; exact hk.symm
      have hsmall : (0 : ℚ) < 1 / 10000 * l.r := by positivity
      have hpq : p.r < q.r := increasing_get _ hinc' i (i + 1) _ _ hpr hqr (by omega)
      refine ⟨?_, ?_, ?_⟩
      · rw [hval]
        split
        · rcases hw with rfl | rfl
          · exact Or.inl rfl
          · exact Or.inr rfl
        · rename_i hfar
          have hlt : p.r < x := by
            rcases lt_or_eq_of_le h1 with h | h
            · exact h
            · exfalso
              apply hfar
              have h0 : |w.r - x| ≤ 0 := by linarith
              exact lt_of_le_of_lt h0 hsmall
          rw [searchsorted_mid _ x p.r q.r i hinc' hpr hqr hlt h2]
          left
          simp [hp]
      · intro hx
        have h0 : |w.r - x| ≤ 0 := by linarith
        rw [hval, if_pos (lt_of_le_of_lt h0 hsmall)]
        have hwx : w.r = x := by linarith [abs_nonpos_iff.mp h0]
        rcases hw with rfl | rfl
        · rfl
        · exfalso; linarith
      · intro hx
        have h0 : |w.r - x| ≤ 0 := by linarith
        rw [hval, if_pos (lt_of_le_of_lt h0 hsmall)]
        have hwx : w.r = x := by linarith [abs_nonpos_iff.mp h0]
        rcases hw with rfl | rfl
        · exfalso; linarith
        · rfl

example : pcSetNr blade 0 = some 1 ∧ pcSetNr blade 20 = some 2 := by
  constructor
  · exact (C31_pcset blade (by decide +kernel) ⟨20, 1, 20, 2⟩ rfl (by decide +kernel) 0 0 _ _ rfl rfl
      (by decide) (by decide +kernel)).2.1 rfl
  · exact (C31_pcset blade (by decide +kernel) ⟨20, 1, 20, 2⟩ rfl (by decide +kernel) 20 1 _ _ rfl rfl
      (by decide +kernel) (by decide +kernel)).2.2 rfl

/-! ## C32 -/

/-- **C32 fails**: thicknesses are written with 8 decimals, so two files with
different thicknesses (both are doubles) have the same text; no reader can tell
them apart. -/
theorem C32_fails (N : Num ℚ) (hN : N.f8 = fixed 8) :
    ∃ d d' : PcSets ℚ, d ≠ d' ∧ pcWrite N d = pcWrite N d' := by
  refine ⟨[(1, [(24, [])])], [(1, [(24 + 1 / 2 ^ 40, [])])], by decide +kernel, ?_⟩
  have h : fixed 8 24 = fixed 8 (24 + 1 / 2 ^ 40) := by decide +kernel
  simp only [pcWrite, List.length_cons, List.length_nil, List.flatMap_cons, List.flatMap_nil, pcSetLines,
    profsLines, profLines, List.map_nil, hN, h]

/-- **C32 fails**, second cause: coefficients are written with 16 significant
digits, which do not determine a double: `0.1+0.2` and `0.3` have the same text. -/
theorem C32_coeff_fails (N : Num ℚ) (hN : N.e15 = sci 15) :
    ∃ d d' : PcSets ℚ, d ≠ d' ∧ pcWrite N d = pcWrite N d' := by
  refine ⟨[(1, [(24, [[0, 5404319552844595 / 2 ^ 54, 0, 0]])])],
    [(1, [(24, [[0, 5404319552844596 / 2 ^ 54, 0, 0]])])], by decide +kernel, ?_⟩
  have h : sci 15 (5404319552844595 / 2 ^ 54) = sci 15 (5404319552844596 / 2 ^ 54) := by decide +kernel
  simp only [pcWrite, List.length_cons, List.length_nil, List.flatMap_cons, List.flatMap_nil, pcSetLines,
    profsLines, profLines, List.map_cons, List.map_nil, pcRow, hN, h]

/-- **C32 (partial)**: when the thicknesses survive `%.8f` and the coefficients
survive `.15e`, reading the written file gives the same sets, in the same order,
with the same thicknesses and tables, numbered 1, 2, ….  Missing: other numbers
(see the two `_fails`), and sets stored under other numbers are renumbered. -/
theorem C32_partial (N : Num F) (d : PcSets F)
    (h : ∀ s ∈ d, ∀ p ∈ s.2, IsWord (N.f8 p.1) ∧ N.parse (N.f8 p.1) = some p.1 ∧
      ∀ r ∈ p.2, r.length = 4 ∧ ∀ x ∈ r, IsWord (N.e15 x) ∧ N.parse (N.e15 x) = some x) :
    ∃ d', pcRead N (pcWrite N d) = .ok d' ∧ d'.map Prod.snd = d.map Prod.snd ∧
      ∀ (i : Nat) k v, d'[i]? = some (k, v) → k = (i : Int) + 1 := by
  refine ⟨_, pcRead_write N d h, ?_, ?_⟩
  · generalize d.map Prod.snd = l
    suffices H : ∀ i : Int, (numbered i l).map Prod.snd = l from H 1
    induction l with
    | nil => intro i; rfl
    | cons v vs ih => intro i; simp [numbered, ih]
  · generalize d.map Prod.snd = l
    suffices H : ∀ (a : Int) (i : Nat) k v, (numbered a l)[i]? = some (k, v) → k = (i : Int) + a from
      fun i k v => H 1 i k v
    induction l with
    | nil => intro a i k v h; simp [numbered] at h
    | cons v vs ih =>
      intro a i k w h
      cases i with
      | zero => simp [numbered] at h; omega
      | succ i =>
        have := ih (a + 1) i k w (by simpa [numbered] using h)
        push_cast
        omega

example : ∃ d', pcRead toy (pcWrite toy [(1, [(24, [[-180, 0, 1, 0], [180, 0, 1, 0]]), (100, [[0, 1, 2, 3]])]), (2, [])])
    = .ok d' ∧ d'.map Prod.snd = [[(24, [[-180, 0, 1, 0], [180, 0, 1, 0]]), (100, [[0, 1, 2, 3]])], []] ∧
      ∀ (i : Nat) k v, d'[i]? = some (k, v) → k = (i : Int) + 1 := by
  refine C32_partial toy _ ?_
  intro s hs p hp
  refine ⟨(toy_ok _).1, (toy_ok _).2, ?_⟩
  intro r hr
  refine ⟨?_, fun x _ => toy_ok x⟩
  simp only [List.mem_cons, List.not_mem_nil, or_false] at hs
  rcases hs with rfl | rfl
  · simp at hp
    rcases hp with rfl | rfl
    · simp at hr; rcases hr with rfl | rfl <;> rfl
    · simp at hr; subst hr; rfl
  · simp at hp

/-! ## C33 -/

/-- **C33 fails**: with a single profile, the lookup at its own thickness raises. -/
theorem C33_fails (p : Table) (alpha th : ℚ) : cxxx [th] [p] th alpha = none := by
  have : searchsorted [th] th = 0 := searchsorted_first _ _ th rfl le_rfl
  simp [cxxx, this]

/-- **C33 (partial)**: for thicknesses that strictly increase (at least two, as
many as there are profiles) and non-empty tables, the lookup at a thickness
between two neighbouring profiles never raises, and is the linear interpolation
between the two values that the two profiles have at that angle of attack.
Missing: a single profile (see `C33_fails`), repeated thicknesses. -/
theorem C33_partial (ths : List ℚ) (profiles : List Table) (hlen : profiles.length = ths.length)
    (hinc : ths.Pairwise (· < ·)) (hne : ∀ p ∈ profiles, p ≠ []) (t alpha : ℚ)
    (i : Nat) (a b : ℚ) (P Q : Table) (ha : ths[i]? = some a) (hb : ths[i + 1]? = some b)
    (hP : profiles[i]? = some P) (hQ : profiles[i + 1]? = some Q) (h1 : a ≤ t) (h2 : t ≤ b) :
    ∃ c d, interp alpha P = some c ∧ interp alpha Q = some d ∧
      cxxx ths profiles t alpha = some (c + (d - c) * ((t - a) / (b - a))) := by
  have hsome : ∀ R ∈ profiles, ∃ c, interp alpha R = some c := by
    intro R hR
    exact Option.ne_none_iff_exists'.mp (interp_ne_none alpha R (hne R hR))
  obtain ⟨c, hc⟩ := hsome P (List.mem_of_getElem? hP)
  obtain ⟨d, hd⟩ := hsome Q (List.mem_of_getElem? hQ)
  refine ⟨c, d, hc, hd, ?_⟩
  have hab : a < b := increasing_get ths hinc i (i + 1) a b ha hb (by omega)
  have take2 : ∀ {α : Type} (l : List α) (j : Nat) (x y : α), l[j]? = some x → l[j + 1]? = some y →
      (l.drop j).take 2 = [x, y] := by
    intro α l j x y hx hy
    obtain ⟨hj1, rfl⟩ := List.getElem?_eq_some_iff.mp hx
    obtain ⟨hj2, rfl⟩ := List.getElem?_eq_some_iff.mp hy
    rw [List.drop_eq_getElem_cons hj1, List.drop_eq_getElem_cons hj2]
    rfl
  rcases lt_or_eq_of_le h1 with hlt | heq
  · have hs := searchsorted_mid ths t a b i hinc ha hb hlt h2
    unfold cxxx
    simp only [hs, Nat.add_one_ne_zero, if_false, Nat.add_sub_cancel]
    rw [take2 profiles i P Q hP hQ, take2 ths i a b ha hb]
    simp only [hc, hd]
    congr 1
    ring
  · subst heq
    cases i with
    | zero =>
      have hs := searchsorted_first ths a a ha le_rfl
      unfold cxxx
      simp only [hs, if_true, Nat.sub_self]
      rw [take2 profiles 0 P Q hP hQ, take2 ths 0 a b ha hb]
      simp only [hc, hd]
      congr 1
      ring
    | succ j =>
      have hj : j + 1 < ths.length := (List.getElem?_eq_some_iff.mp ha).1
      have he : ths[j]? = some (ths[j]'(by omega)) := List.getElem?_eq_getElem (by omega)
      set e := ths[j]'(by omega) with hedef
      have hea : e < a := increasing_get ths hinc j (j + 1) e a he ha (by omega)
      have hs := searchsorted_mid ths a e a j hinc he ha hea le_rfl
      have hR : profiles[j]? = some (profiles[j]'(by omega)) := List.getElem?_eq_getElem (by omega)
      set R := profiles[j]'(by omega) with hRdef
      obtain ⟨r, hr⟩ := hsome R (List.mem_of_getElem? hR)
      unfold cxxx
      simp only [hs, Nat.add_one_ne_zero, if_false, Nat.add_sub_cancel]
      rw [take2 profiles j R P hR hP, take2 ths j e a he ha]
      simp only [hr, hc, sub_self, zero_div, mul_zero, add_zero]
      congr 1
      rw [mul_div_assoc, div_self (by linarith : a - e ≠ 0)]
      ring

/-- every thickness between the smallest and the largest lies between two
neighbours -/
theorem C33_range_partial (ths : List ℚ) (profiles : List Table) (hlen : profiles.length = ths.length)
    (h2 : 2 ≤ ths.length) (hinc : ths.Pairwise (· < ·)) (hne : ∀ p ∈ profiles, p ≠ []) (t alpha : ℚ)
    (lo hi : ℚ) (hlo : ths.head? = some lo) (hhi : ths.getLast? = some hi) (h1 : lo ≤ t) (h3 : t ≤ hi) :
    ∃ (i : Nat) (a b : ℚ) (P Q : Table) (c d : ℚ), ths[i]? = some a ∧ ths[i + 1]? = some b ∧ a ≤ t ∧ t ≤ b ∧
      profiles[i]? = some P ∧ profiles[i + 1]? = some Q ∧ interp alpha P = some c ∧ interp alpha Q = some d ∧
      cxxx ths profiles t alpha = some (c + (d - c) * ((t - a) / (b - a))) := by
  have hex : ∀ (l : List ℚ) (lo : ℚ), 2 ≤ l.length → l.head? = some lo → l.getLast? = some hi → lo ≤ t →
      ∃ (i : Nat) (a b : ℚ), l[i]? = some a ∧ l[i + 1]? = some b ∧ a ≤ t ∧ t ≤ b := by
    intro l
    induction l with
    | nil => intro _ h; simp at h
    | cons x l ih =>
      intro lo hl hh hg hlt
      cases l with
      | nil => simp at hl
      | cons y l =>
        simp at hh
        subst hh
        rcases le_or_gt t y with hty | hty
        · exact ⟨0, x, y, rfl, rfl, hlt, hty⟩
        · cases l with
          | nil =>
            simp at hg
            subst hg
            exact absurd h3 (not_le.mpr hty)
          | cons z l =>
            obtain ⟨i, a, b, e1, e2, e3, e4⟩ := ih y (by simp) rfl
              (by simpa [List.getLast?_cons_cons] using hg) (le_of_lt hty)
            exact ⟨i + 1, a, b, by simpa using e1, by simpa using e2, e3, e4⟩
  obtain ⟨i, a, b, e1, e2, e3, e4⟩ := hex ths lo h2 hlo hhi h1
  have hi1 : i + 1 < ths.length := (List.getElem?_eq_some_iff.mp e2).1
  have hP : profiles[i]? = some (profiles[i]'(by omega)) := List.getElem?_eq_getElem (by omega)
  have hQ : profiles[i + 1]? = some (profiles[i + 1]'(by omega)) := List.getElem?_eq_getElem (by omega)
  obtain ⟨c, d, hc, hd, hv⟩ := C33_partial ths profiles hlen hinc hne t alpha i a b _ _ e1 e2 hP hQ e3 e4
  exact ⟨i, a, b, _, _, c, d, e1, e2, e3, e4, hP, hQ, hc, hd, hv⟩

example : cxxx [15, 24, 100] [[(0, 1), (10, 2)], [(0, 2), (10, 4)], [(0, 0)]] (39 / 2) 5 = some (9 / 4) := by
  obtain ⟨c, d, hc, hd, h⟩ := C33_partial [15, 24, 100] [[(0, 1), (10, 2)], [(0, 2), (10, 4)], [(0, 0)]] rfl
    (by decide +kernel) (by decide) (39 / 2) 5 0 15 24 _ _ rfl rfl rfl rfl (by norm_num) (by norm_num)
  have h1 : interp 5 [(0, 1), (10, 2)] = some (3 / 2) := by decide +kernel
  have h2 : interp 5 [(0, 2), (10, 4)] = some 3 := by decide +kernel
  rw [h1] at hc
  rw [h2] at hd
  injection hc with hc
  injection hd with hd
  subst hc hd
  rw [h]
  norm_num

end Verif.HawcAe
