import Verif.Spec.HtcBody
import Verif.Lemmas.Str
import Verif.Py.Dec
import Mathlib.Data.List.Forall2
/-!
# Lemmas on the bodies of a HAWC2 file
-/
namespace Verif.HtcBody
open Verif.Py

theorem lookup_mem {β : Type} {d : List (Str × β)} (hn : (d.map Prod.fst).Nodup) (c : Str × β) (h : c ∈ d) : d.lookup c.1 = some c.2 := by
  induction d with
  | nil => cases h
  | cons x d ih =>
    rw [List.map_cons, List.nodup_cons] at hn
    rcases List.mem_cons.1 h with rfl | h
    · exact List.lookup_cons_self
    · have : c.1 ≠ x.1 := fun e => hn.1 (e ▸ List.mem_map_of_mem h)
      rw [List.lookup_cons, beq_false_of_ne this]
      exact ih hn.2 h

theorem secKeys_eq (s : Sect) : secKeys s = (secLines s).map Prod.fst := by
  rw [secKeys, secLines, List.filter_map]
  rfl

theorem secRows (s : Sect) (hn : (s.map Prod.fst).Nodup) : ((secKeys s).map fun k => (s.lookup k).getD []) = (secLines s).map Prod.snd := by
  rw [secKeys_eq, List.map_map]
  refine List.map_congr_left fun p hp => ?_
  simp only [Function.comp_apply, lookup_mem hn p (List.mem_of_mem_filter hp), Option.getD_some]

theorem floats_num (l : List ℚ) : floats (l.map Val.num) = .ok l := by
  induction l with
  | nil => rfl
  | cons x l ih => simp only [List.map_cons, floats, floatOf, ih]

theorem fives_flatten (rows : List (List ℚ)) (h : ∀ r ∈ rows, r.length = 5) : fives rows.flatten = rows ∧ rows.flatten.length % 5 = 0 := by
  induction rows with
  | nil => exact ⟨rfl, rfl⟩
  | cons r rows ih =>
    obtain ⟨ih1, ih2⟩ := ih fun x hx => h x (List.mem_cons_of_mem _ hx)
    have hr := h r List.mem_cons_self
    match r, hr with
    | [a, b, c, d, e], _ =>
      simp only [List.flatten_cons, List.cons_append, List.nil_append, fives, ih1, true_and, List.length_cons]
      omega

theorem bodyC2_rows (l s : Sect) (rows : List (List ℚ)) (hn : (s.map Prod.fst).Nodup) (v : Val) (vs : List Val) (hv : s.lookup "nsec".toList = some (v :: vs))
    (hl : (secLines s).map Prod.snd = rows.map fun r => r.map Val.num) (h5 : ∀ r ∈ rows, r.length = 5) : bodyC2 ⟨l, some s⟩ = .ok (sortRows rows) := by
  rw [bodyC2]
  simp only [hv, secRows s hn, hl]
  have hany : ((rows.map fun r => r.map Val.num).any fun r => decide (r.length ≠ ((rows.map fun r => r.map Val.num).headD []).length)) = false := by
    rw [List.any_eq_false]
    intro r hr
    obtain ⟨q, hq, rfl⟩ := List.mem_map.1 hr
    cases rows with
    | nil => cases hq
    | cons q0 rows => simp [h5 q hq, h5 q0 List.mem_cons_self]
  rw [if_neg (by rw [hany]; decide)]
  have hfl : (rows.map fun r => r.map Val.num).flatten = rows.flatten.map Val.num := by rw [List.map_flatten]
  rw [hfl, floats_num]
  simp only
  obtain ⟨e1, e2⟩ := fives_flatten rows h5
  rw [if_neg (by rw [e2]; simp), e1]

theorem setVals_keys (s : Sect) (k : Str) (v : List Val) : (setVals s k v).map Prod.fst = s.map Prod.fst := by
  rw [setVals, List.map_map]
  refine List.map_congr_left fun p _ => ?_
  simp only [Function.comp_apply]
  split <;> rfl

theorem setVals_lookup (s : Sect) (k k' : Str) (v : List Val) : (setVals s k v).lookup k' = if k' = k ∧ k ∈ s.map Prod.fst then some v else s.lookup k' := by
  induction s with
  | nil => simp [setVals]
  | cons p s ih =>
    have e : setVals (p :: s) k v = (if p.1 = k then (p.1, v) else p) :: setVals s k v := rfl
    rw [e]
    by_cases hp : p.1 = k
    · rw [if_pos hp, List.lookup_cons, List.lookup_cons, ih]
      by_cases hk : k' = k
      · subst hk; simp [hp]
      · rw [beq_false_of_ne (by rw [hp]; exact hk), if_neg (fun h => hk h.1), if_neg (fun h => hk h.1)]
    · rw [if_neg hp, List.lookup_cons, List.lookup_cons, ih]
      by_cases hkk : k' = k
      · have hk : (k' == p.1) = false := beq_false_of_ne fun e => hp (e ▸ hkk)
        rw [hk]
        have : (k ∈ (p :: s).map Prod.fst) ↔ k ∈ s.map Prod.fst := by
          rw [List.map_cons, List.mem_cons]
          exact ⟨fun h => h.resolve_left fun e => hp e.symm, Or.inr⟩
        simp only [this]
      · have n1 : ∀ q : Prop, ¬ (k' = k ∧ q) := fun q h => hkk h.1
        rw [if_neg (n1 _), if_neg (n1 _)]

theorem trunc_int (n : Int) : trunc (n : ℚ) = n := by
  rw [trunc]
  split
  · have : -(n : ℚ) = ((-n : Int) : ℚ) := by push_cast; rfl
    rw [this, Int.floor_intCast, Int.cast_neg, neg_neg]
  · rw [Int.floor_intCast]

theorem assign_ok (ks : List Str) (val : List (List ℚ)) (s : Sect) (hlen : ks.length = val.length) (hnd : ks.Nodup) (hv : Rows val)
    (hs : ∀ k ∈ ks, ∃ v vs, s.lookup k = some (v :: vs)) (hk : ∀ k ∈ ks, k ∈ s.map Prod.fst) :
    ∃ s', assign s ks val = (s', .ok ()) ∧ s'.map Prod.fst = s.map Prod.fst ∧ (∀ k, k ∉ ks → s'.lookup k = s.lookup k) ∧
      ks.map (fun k => s'.lookup k) = val.map fun r => some (r.map Val.num) := by
  induction ks generalizing val s with
  | nil =>
    cases val with
    | nil => exact ⟨s, rfl, rfl, fun _ _ => rfl, rfl⟩
    | cons r val => cases hlen
  | cons k ks ih =>
    cases val with
    | nil => cases hlen
    | cons r val =>
      obtain ⟨h5, n, hn⟩ := hv r List.mem_cons_self
      cases r with
      | nil => cases hn
      | cons x xs =>
        obtain rfl : x = n := Option.some.inj hn
        obtain ⟨v, vs, e⟩ := hs k List.mem_cons_self
        rw [List.nodup_cons] at hnd
        have hne : ∀ k' ∈ ks, k' ≠ k := fun k' h e => hnd.1 (e ▸ h)
        obtain ⟨s', a1, a2, a3, a4⟩ := ih val (setVals s k (.num (trunc n) :: xs.map .num)) (by simpa using hlen) hnd.2
          (fun r hr => hv r (List.mem_cons_of_mem _ hr))
          (fun k' h => by
            rw [setVals_lookup, if_neg (fun hh => hne k' h hh.1)]
            exact hs k' (List.mem_cons_of_mem _ h))
          (fun k' h => by rw [setVals_keys]; exact hk k' (List.mem_cons_of_mem _ h))
        refine ⟨s', ?_, by rw [a2, setVals_keys], ?_, ?_⟩
        · simp only [assign, e]
          exact a1
        · intro k' hk'
          rw [a3 k' fun h => hk' (List.mem_cons_of_mem _ h), setVals_lookup, if_neg (fun hh => hk' (by rw [hh.1]; exact List.mem_cons_self))]
        · rw [List.map_cons, List.map_cons, a4, a3 k hnd.1, setVals_lookup, if_pos ⟨rfl, hk k List.mem_cons_self⟩, trunc_int]
          rfl

theorem nodup_sublist {α : Type} [DecidableEq α] (l : List α) (h : l.Nodup) (n : Nat) : l.filter (fun k => k ∉ l.drop n) = l.take n := by
  conv_lhs => rw [← List.take_append_drop n l]
  rw [List.filter_append]
  have h' := h
  rw [← List.take_append_drop n l, List.nodup_append] at h'
  have e1 : (l.take n).filter (fun k => k ∉ (l.take n ++ l.drop n).drop n) = l.take n := by
    rw [List.take_append_drop]
    exact List.filter_eq_self.2 fun k hk => by
      simp only [decide_not, Bool.not_eq_true', decide_eq_false_iff_not]
      exact fun hd => h'.2.2 k hk k hd rfl
  have e2 : (l.drop n).filter (fun k => k ∉ (l.take n ++ l.drop n).drop n) = [] := by
    rw [List.take_append_drop]
    exact List.filter_eq_nil_iff.2 fun k hk => by simp [hk]
  rw [e1, e2, List.append_nil]

theorem secLines_lookup (s : Sect) (hn : (s.map Prod.fst).Nodup) : (secKeys s).map (fun k => s.lookup k) = (secLines s).map fun p => some p.2 := by
  rw [secKeys_eq, List.map_map]
  exact List.map_congr_left fun p hp => lookup_mem hn p (List.mem_of_mem_filter hp)

theorem sortRows_sorted (val : List (List ℚ)) (h : val.Pairwise fun a b => a.headD 0 ≤ b.headD 0) : sortRows val = val := by
  rw [sortRows]
  exact List.Pairwise.insertionSort_eq h

theorem sec_nsec : startsWith "nsec".toList "sec".toList = false := by decide

theorem setKey_lookup {κ β : Type} [DecidableEq κ] [BEq κ] [LawfulBEq κ] (d : List (κ × β)) (k k' : κ) (v : β) : (setKey d k v).lookup k' = if k' = k then some v else d.lookup k' := by
  rw [setKey]
  split
  · rename_i hm
    induction d with
    | nil => cases hm
    | cons p d ih =>
      rw [List.map_cons]
      by_cases hp : p.1 = k
      · rw [if_pos hp, List.lookup_cons, List.lookup_cons]
        by_cases hk : k' = k
        · subst hk; simp [hp]
        · rw [beq_false_of_ne (by rw [hp]; exact hk), if_neg hk]
          simp only
          by_cases hm' : k ∈ d.map Prod.fst
          · rw [ih hm', if_neg hk]
          · congr 1
            conv_rhs => rw [← List.map_id d]
            refine List.map_congr_left fun q hq => ?_
            have hne : ¬ q.1 = k := fun e => hm' (e ▸ List.mem_map_of_mem hq)
            rw [if_neg hne]
            rfl
      · rw [if_neg hp, List.lookup_cons, List.lookup_cons]
        have hm' : k ∈ d.map Prod.fst := by
          rw [List.map_cons] at hm
          exact (List.mem_cons.1 hm).resolve_left fun e => hp e.symm
        rw [ih hm']
        by_cases hk : k' = k
        · rw [beq_false_of_ne (by rw [hk]; exact fun e => hp e.symm)]
        · rw [if_neg hk, if_neg hk]
  · rename_i hm
    induction d with
    | nil =>
      by_cases hk : k' = k
      · simp [hk]
      · rw [if_neg hk, List.nil_append, List.lookup_cons, beq_false_of_ne hk]
    | cons p d ih =>
      rw [List.map_cons, List.mem_cons, not_or] at hm
      rw [List.cons_append, List.lookup_cons, List.lookup_cons, ih hm.2]
      by_cases hk : k' = k
      · rw [beq_false_of_ne (by rw [hk]; exact hm.1)]
      · rw [if_neg hk, if_neg hk]

theorem setKey_mem {κ β : Type} [DecidableEq κ] (d : List (κ × β)) (k : κ) (v : β) (k' : κ) (h : k' ∈ (setKey d k v).map Prod.fst) : k' ∈ d.map Prod.fst ∨ k' = k := by
  rw [setKey] at h
  split at h
  · left
    rw [List.map_map] at h
    obtain ⟨p, hp, e⟩ := List.mem_map.1 h
    simp only [Function.comp_apply] at e
    have : p.1 = k' := by
      split at e <;> exact e
    exact this ▸ List.mem_map_of_mem hp
  · rw [List.map_append, List.mem_append] at h
    rcases h with h | h
    · exact Or.inl h
    · right
      simpa using h

/-- a section of two lines -/
def exSect : Sect :=
  [("nsec".toList, [.num 2]), ("sec".toList, [.num 2, .num 0, .num 0, .num 5, .num 0]), ("sec__2".toList, [.num 1, .num 0, .num 0, .num 0, .num 0])]

theorem exSect_good : GoodC2 exSect [[2, 0, 0, 5, 0], [1, 0, 0, 0, 0]] :=
  ⟨by decide +kernel, ⟨[], by decide +kernel⟩, by decide +kernel, by decide⟩

end Verif.HtcBody
