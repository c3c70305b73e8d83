import Verif.Spec.HtcMann
import Verif.Lemmas.HtcHydro
/-!
# Lemmas on Mann turbulence in HAWC2 files
-/
namespace Verif.HtcMann
open Verif.Py Verif.HtcEdit Verif.HtcAdd Verif.HtcHydro

/-- a change of one line: its values are set, or it is deleted; the values of all other paths are kept, and lines remain lines -/
structure Puts {V : Type} (d d' : Kids V) (k : Str) (v : Option (List V)) : Prop where
  here : valuesAt [k] d' = v
  other : ∀ p, p ≠ [k] → valuesAt p d' = valuesAt p d
  lines : ∀ b, LineOrNone d b → LineOrNone d' b

theorem setAttr_puts {V : Type} (d : Kids V) (k : Str) (v : List V) (ha : k ∉ attrs) (hl : LineOrNone d k) : Puts d (setAttr d k v) k (some v) := by
  obtain ⟨-, s⟩ := assign_sets d k v ha hl
  exact ⟨s.here, s.other, fun b hb => assign_lines d k b v hl hb⟩

/-- the value of a path below a line -/
theorem below_line {V : Type} (d : Kids V) (k : Str) (p : List Str) (hl : LineOrNone d k) (hp : p ≠ []) : valuesAt (k :: p) d = none := by
  rw [valuesAt_cons]
  cases hd : look k d with
  | none => rfl
  | some x =>
    obtain ⟨n', w, c', hx⟩ := hl _ (look_mem k d x hd) rfl
    simp only at hx
    subst hx
    simp only [hp, if_false]

theorem look_drop_self {α : Type} (k : Str) (d : List (Str × α)) : look k (drop k d) = none := by
  rw [look_none_iff, drop]
  intro h
  obtain ⟨q, hq, e⟩ := List.mem_map.1 h
  exact absurd e (of_decide_eq_true (List.mem_filter.1 hq).2)

theorem look_drop_other {α : Type} (k k' : Str) (d : List (Str × α)) (h : k' ≠ k) : look k' (drop k d) = look k' d := by
  induction d with
  | nil => rfl
  | cons a d ih =>
    obtain ⟨a, b⟩ := a
    by_cases e : a = k
    · have : drop k ((a, b) :: d) = drop k d := by rw [drop, List.filter_cons_of_neg (by simp [e])]; rfl
      rw [this, ih, look, if_neg (fun e' => h (e'.symm.trans e))]
    · have : drop k ((a, b) :: d) = (a, b) :: drop k d := by rw [drop, List.filter_cons_of_pos (by simp [e])]; rfl
      rw [this, look, look, ih]

theorem delAttr_puts {V : Type} (d : Kids V) (k : Str) (hl : LineOrNone d k) : Puts d (delAttr d k) k none := by
  have h1 : look k (delAttr d k) = none := by
    rw [delAttr]
    cases h : look k d with
    | none => rw [if_neg (by simp), h]
    | some x => rw [if_pos (by simp), look_drop_self]
  have h2 : ∀ k', k' ≠ k → look k' (delAttr d k) = look k' d := by
    intro k' hk
    rw [delAttr]
    split
    · exact look_drop_other k k' d hk
    · rfl
  refine ⟨?_, ?_, ?_⟩
  · rw [valuesAt_cons, h1]
  · intro p hp
    cases p with
    | nil => rfl
    | cons k' p =>
      by_cases hk : k' = k
      · subst hk
        rw [valuesAt_cons, h1, below_line d k' p hl (fun e => hp (by rw [e]))]
      · exact valuesAt_look k' p _ _ (h2 k' hk)
  · intro b hb q hq e
    rw [delAttr] at hq
    split at hq
    · exact hb q (List.mem_filter.1 hq).1 e
    · exact hb q hq e

theorem setOrDel_puts {V : Type} (d : Kids V) (k : Str) (v : Option (List V)) (ha : k ∉ attrs) (hl : LineOrNone d k) : Puts d (setOrDel k v d) k v := by
  cases v with
  | none => exact delAttr_puts d k hl
  | some v => exact setAttr_puts d k v ha hl

theorem setParams_puts {V : Type} (d : Kids V) (v : List V) (hl : LineOrNone d "create_turb_parameters".toList) :
    Puts d (setParams v d) "create_turb_parameters".toList (some v) := by
  rw [setParams]
  cases h : look "create_turb_parameters".toList d with
  | some x => rw [if_pos (by simp)]; exact setAttr_puts d _ v (by decide +kernel) hl
  | none =>
    have hk := (look_none_iff _ d).1 h
    rw [if_neg (by simp), Htc.newKey, if_pos hk]
    refine ⟨?_, ?_, ?_⟩
    · rw [valuesAt_cons, look_append, h, Option.none_or, look, if_pos rfl]
      rfl
    · intro p hp
      cases p with
      | nil => rfl
      | cons k' p =>
        by_cases hk' : k' = "create_turb_parameters".toList
        · subst hk'
          have hpn : p ≠ [] := fun e => hp (by rw [e])
          rw [valuesAt_cons, look_append, h, Option.none_or, look, if_pos rfl, below_line d _ p hl hpn]
          simp only [hpn, if_false]
        · refine valuesAt_look k' p _ _ ?_
          rw [look_append, look, if_neg (Ne.symm hk'), look, Option.or_none]
    · intro b hb q hq e
      rw [List.mem_append, List.mem_singleton] at hq
      rcases hq with hq | rfl
      · exact hb q hq e
      · exact ⟨_, _, _, rfl⟩

theorem chain {V : Type} (l : List (Str × Option (List V) × (Kids V → Kids V)))
    (hs : ∀ s ∈ l, ∀ d, LineOrNone d s.1 → Puts d (s.2.2 d) s.1 s.2.1) (hn : (l.map fun s => s.1).Nodup) (d : Kids V)
    (hd : ∀ s ∈ l, LineOrNone d s.1) :
    (∀ s ∈ l, valuesAt [s.1] (l.foldl (fun d s => s.2.2 d) d) = s.2.1) ∧
      ∀ p, (∀ s ∈ l, p ≠ [s.1]) → valuesAt p (l.foldl (fun d s => s.2.2 d) d) = valuesAt p d := by
  induction l generalizing d with
  | nil => exact ⟨fun s h => (List.not_mem_nil h).elim, fun p _ => rfl⟩
  | cons a l ih =>
    rw [List.map_cons, List.nodup_cons] at hn
    have ha := hs a (List.mem_cons_self ..) d (hd a (List.mem_cons_self ..))
    obtain ⟨i1, i2⟩ := ih (fun s h => hs s (List.mem_cons_of_mem _ h)) hn.2 (a.2.2 d) (fun s h => ha.lines _ (hd s (List.mem_cons_of_mem _ h)))
    rw [List.foldl_cons]
    constructor
    · intro s h
      rcases List.mem_cons.1 h with rfl | h
      · rw [i2, ha.here]
        intro t ht e
        exact hn.1 (List.mem_map.2 ⟨t, ht, ((List.cons.inj e).1).symm⟩)
      · exact i1 s h
    · intro p hp
      rw [i2 p (fun s h => hp s (List.mem_cons_of_mem _ h)), ha.other p (hp a (List.mem_cons_self ..))]

/-- the changes of the section `mann`, one by one -/
def steps {V : Type} (b : Box V) : List (Str × Option (List V) × (Kids V → Kids V)) :=
  [("create_turb_parameters".toList, some b.params, setParams b.params),
    ("filename_u".toList, some b.fileU, fun d => setAttr d "filename_u".toList b.fileU),
    ("filename_v".toList, some b.fileV, fun d => setAttr d "filename_v".toList b.fileV),
    ("filename_w".toList, some b.fileW, fun d => setAttr d "filename_w".toList b.fileW),
    ("box_dim_u".toList, some b.dimU, fun d => setAttr d "box_dim_u".toList b.dimU),
    ("box_dim_v".toList, some b.dimV, fun d => setAttr d "box_dim_v".toList b.dimV),
    ("box_dim_w".toList, some b.dimW, fun d => setAttr d "box_dim_w".toList b.dimW),
    ("dont_scale".toList, if b.dontScale then some [b.one] else none, setOrDel "dont_scale".toList (if b.dontScale then some [b.one] else none)),
    ("std_scaling".toList, b.std, setOrDel "std_scaling".toList b.std)]

theorem steps_lines {V : Type} (b : Box V) : (steps b).map (fun s => (s.1, s.2.1)) = mannLines b := rfl

theorem steps_puts {V : Type} (b : Box V) : ∀ s ∈ steps b, ∀ d, LineOrNone d s.1 → Puts d (s.2.2 d) s.1 s.2.1 := by
  intro s hs d hl
  simp only [steps, List.mem_cons, List.not_mem_nil, or_false] at hs
  rcases hs with rfl | rfl | rfl | rfl | rfl | rfl | rfl | rfl | rfl
  · exact setParams_puts d _ hl
  · exact setAttr_puts d "filename_u".toList _ (by decide +kernel) hl
  · exact setAttr_puts d "filename_v".toList _ (by decide +kernel) hl
  · exact setAttr_puts d "filename_w".toList _ (by decide +kernel) hl
  · exact setAttr_puts d "box_dim_u".toList _ (by decide +kernel) hl
  · exact setAttr_puts d "box_dim_v".toList _ (by decide +kernel) hl
  · exact setAttr_puts d "box_dim_w".toList _ (by decide +kernel) hl
  · exact setOrDel_puts d "dont_scale".toList _ (by decide +kernel) hl
  · exact setOrDel_puts d "std_scaling".toList _ (by decide +kernel) hl

theorem names_nodup : ["create_turb_parameters".toList, "filename_u".toList, "filename_v".toList, "filename_w".toList, "box_dim_u".toList,
    "box_dim_v".toList, "box_dim_w".toList, "dont_scale".toList, "std_scaling".toList].Nodup := by decide +kernel

theorem setMann_sets {V : Type} (b : Box V) (m : Kids V) (hl : ∀ s ∈ mannLines b, LineOrNone m s.1) :
    (∀ s ∈ mannLines b, valuesAt [s.1] (setMann b m) = s.2) ∧
      ∀ p, (∀ s ∈ mannLines b, p ≠ [s.1]) → valuesAt p (setMann b m) = valuesAt p m := by
  have hm : ∀ s ∈ steps b, (s.1, s.2.1) ∈ mannLines b := fun s hs => by
    rw [← steps_lines]
    exact List.mem_map.2 ⟨s, hs, rfl⟩
  obtain ⟨h1, h2⟩ := chain (steps b) (steps_puts b) names_nodup m (fun s hs => hl _ (hm s hs))
  constructor
  · intro s hs
    rw [← steps_lines] at hs
    obtain ⟨t, ht, rfl⟩ := List.mem_map.1 hs
    exact h1 t ht
  · intro p hp
    exact h2 p (fun s hs => hp _ (hm s hs))

end Verif.HtcMann
