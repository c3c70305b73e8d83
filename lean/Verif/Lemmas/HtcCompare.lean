import Verif.Spec.HtcCompare
/-!
# Lemmas on comparison of HAWC2 files
-/
namespace Verif.HtcCompare
open Verif.Py

theorem lookup_mem' (l : List (Str × β)) (k : Str) (b : β) (h : l.lookup k = some b) : (k, b) ∈ l := by
  induction l with
  | nil => cases h
  | cons x l ih =>
    obtain ⟨k', b'⟩ := x
    rw [List.lookup_cons] at h
    by_cases hk : k = k'
    · subst hk
      rw [beq_self_eq_true] at h
      cases h
      exact List.mem_cons_self
    · rw [beq_false_of_ne hk] at h
      exact List.mem_cons_of_mem _ (ih h)

theorem lookup_none' (l : List (Str × β)) (k : Str) (h : k ∉ l.map Prod.fst) : l.lookup k = none := by
  cases hl : l.lookup k with
  | none => rfl
  | some b => exact absurd (List.mem_map_of_mem (f := Prod.fst) (lookup_mem' l k b hl)) h

theorem lookup_filter_ne (l : List (Str × β)) (k j : Str) (h : j ≠ k) :
    (l.filter (fun o => decide (o.1 ≠ k))).lookup j = l.lookup j := by
  induction l with
  | nil => rfl
  | cons x l ih =>
    obtain ⟨k', b'⟩ := x
    by_cases hk : k' = k
    · subst hk
      rw [List.filter_cons_of_neg (by simp), ih, List.lookup_cons, beq_false_of_ne h]
    · rw [List.filter_cons_of_pos (by simpa using hk), List.lookup_cons, List.lookup_cons, ih]

theorem lookup_filter_self (l : List (Str × β)) (k : Str) :
    (l.filter (fun o => decide (o.1 ≠ k))).lookup k = none := by
  apply lookup_none'
  simp

theorem nil_of_lookup (l : List (Str × β)) (h : ∀ k, l.lookup k = none) : l = [] := by
  cases l with
  | nil => rfl
  | cons x l =>
    have := h x.1
    rw [List.lookup_cons, beq_self_eq_true] at this
    cases this

/-- two looked up contents compare empty -/
def Rel [DecidableEq V] : Option (Item V) → Option (Item V) → Prop
  | none, none => True
  | some a, some b => cmp a b = some []
  | _, _ => False

theorem cmpKids_empty [DecidableEq V] (mine other : List (Str × Item V)) (hm : (mine.map Prod.fst).Nodup) :
    cmpKids mine other = some [] ↔ ∀ k, Rel (mine.lookup k) (other.lookup k) := by
  induction mine generalizing other with
  | nil =>
    rw [cmpKids]
    constructor
    · intro h k
      cases other with
      | nil => trivial
      | cons o os => simp at h
    · intro h
      rw [nil_of_lookup other (fun k => by
        have := h k
        cases ho : other.lookup k with
        | none => rfl
        | some b => rw [ho] at this; exact this.elim)]
      rfl
  | cons x mine ih =>
    obtain ⟨k, a⟩ := x
    rw [List.map_cons, List.nodup_cons] at hm
    rw [cmpKids]
    have hself : ((k, a) :: mine).lookup k = some a := by rw [List.lookup_cons, beq_self_eq_true]
    cases ho : other.lookup k with
    | none =>
      simp only
      constructor
      · intro h
        cases hr : cmpKids mine other <;> rw [hr] at h <;> simp at h
      · intro h
        have := h k
        rw [hself, ho] at this
        exact this.elim
    | some b =>
      simp only
      have hi := ih (other.filter (fun o => decide (o.1 ≠ k))) hm.2
      have hk0 := lookup_none' mine k hm.1
      constructor
      · intro h
        have h2 : cmp a b = some [] ∧ cmpKids mine (other.filter (fun o => decide (o.1 ≠ k))) = some [] := by
          split at h
          · rename_i s r hs hr
            simp only [Option.some.injEq, List.append_eq_nil_iff] at h
            rw [hs, hr, h.1, h.2]
            exact ⟨rfl, rfl⟩
          · cases h
        intro j
        by_cases hj : j = k
        · subst hj; rw [hself, ho]; exact h2.1
        · have := hi.1 h2.2 j
          rw [lookup_filter_ne other k j hj] at this
          rw [List.lookup_cons, beq_false_of_ne hj]
          exact this
      · intro h
        have h1 : cmp a b = some [] := by have := h k; rw [hself, ho] at this; exact this
        have h2 : cmpKids mine (other.filter (fun o => decide (o.1 ≠ k))) = some [] := hi.2 (fun j => by
          by_cases hj : j = k
          · subst hj; rw [hk0, lookup_filter_self]; trivial
          · have := h j
            rw [List.lookup_cons, beq_false_of_ne hj] at this
            rw [lookup_filter_ne other k j hj]
            exact this)
        rw [h1, h2]
        rfl

theorem cmpSensor_self [DecidableEq V] (s : Sensor V) : cmpSensor s s = [] := by simp [cmpSensor]

theorem cmpSensors_prefix [DecidableEq V] (ss more : List (Sensor V)) : cmpSensors ss (ss ++ more) = [] := by
  have h : (List.zipWith cmpSensor ss (ss ++ more)).flatten = [] := by
    induction ss with
    | nil => cases more <;> rfl
    | cons s ss ih => simp [cmpSensor_self, ih]
  rw [cmpSensors, h, List.drop_eq_nil_of_le (by simp), List.drop_length]
  rfl

theorem cmpSensors_nil [DecidableEq V] (ss ss' : List (Sensor V)) (h : cmpSensors ss ss' = []) :
    ss.length ≤ ss'.length ∧
    ∀ (i : Nat) s s', ss[i]? = some s → ss'[i]? = some s' → s.sensor = s'.sensor ∧ s.values = s'.values := by
  rw [cmpSensors, List.append_eq_nil_iff, List.append_eq_nil_iff] at h
  obtain ⟨⟨h1, h2⟩, -⟩ := h
  constructor
  · have := congrArg List.length h2
    rw [List.length_map, List.length_drop] at this
    simp only [List.length_nil] at this
    omega
  · intro i s s' hi hi'
    have hm : cmpSensor s s' ∈ List.zipWith cmpSensor ss ss' := by
      apply List.mem_of_getElem? (i := i)
      rw [List.getElem?_zipWith, hi, hi']
    have := List.flatten_eq_nil_iff.1 h1 _ hm
    rw [cmpSensor] at this
    split at this
    · cases this
    · rename_i hn
      simpa [not_or] using hn

theorem cmpKids_single [DecidableEq V] (mine other : List (Str × Item V)) (es : List Entry) (h : cmpKids mine other = some es)
    (k : Str) (a : Item V) :
    ((k, a) ∈ mine → (∀ o ∈ other, o.1 ≠ k) → ('-', a.text) ∈ es) ∧
    ((k, a) ∈ other → (∀ o ∈ mine, o.1 ≠ k) → ('+', a.text) ∈ es) := by
  induction mine generalizing other es with
  | nil =>
    rw [cmpKids] at h
    cases h
    refine ⟨fun h => (by cases h), fun h _ => ?_⟩
    exact List.mem_map.2 ⟨_, h, rfl⟩
  | cons x mine ih =>
    obtain ⟨j, b⟩ := x
    rw [cmpKids] at h
    cases ho : other.lookup j with
    | none =>
      rw [ho] at h
      simp only at h
      cases hr : cmpKids mine other with
      | none => rw [hr] at h; cases h
      | some r =>
        rw [hr] at h
        cases h
        have hi := ih other r hr
        constructor
        · intro hm hn
          rcases List.mem_cons.1 hm with e | hm
          · cases e; exact List.mem_cons_self
          · exact List.mem_cons_of_mem _ (hi.1 hm hn)
        · intro hm hn
          exact List.mem_cons_of_mem _ (hi.2 hm (fun o ho => hn o (List.mem_cons_of_mem _ ho)))
    | some c =>
      rw [ho] at h
      simp only at h
      split at h
      · rename_i s r hs hr
        cases h
        have hi := ih _ r hr
        constructor
        · intro hm hn
          rcases List.mem_cons.1 hm with e | hm
          · cases e
            exact absurd rfl (hn _ (lookup_mem' other k c ho))
          · exact List.mem_append_right _ (hi.1 hm (fun o h => hn o ((List.mem_filter.1 h).1)))
        · intro hm hn
          refine List.mem_append_right _ (hi.2 ?_ (fun o ho => hn o (List.mem_cons_of_mem _ ho)))
          rw [List.mem_filter]
          refine ⟨hm, ?_⟩
          have := hn _ (List.mem_cons_self (a := (j, b)) (l := mine))
          simpa using fun e => this e.symm
      · cases h

end Verif.HtcCompare
