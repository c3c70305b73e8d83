import Verif.Spec.HtcEdit
import Verif.Py.Dec
import Verif.Lemmas.HtcTree
/-!
# Lemmas on changed HAWC2 files
-/
namespace Verif.HtcEdit
open Verif.Py

theorem look_find {α : Type} (k : Str) (d : List (Str × α)) : look k d = (d.find? fun p => p.1 = k).map Prod.snd := by
  induction d with
  | nil => rfl
  | cons p d ih =>
    obtain ⟨a, b⟩ := p
    rw [look, List.find?_cons]
    by_cases h : a = k
    · simp [h]
    · simp [h, ih]

theorem look_put {α : Type} (k k' : Str) (v : α) (d : List (Str × α)) : look k' (put k v d) = if k' = k then some v else look k' d := by
  induction d with
  | nil =>
    by_cases h : k' = k
    · simp [put, look, h]
    · simp [put, look, h, Ne.symm h]
  | cons p d ih =>
    obtain ⟨a, b⟩ := p
    by_cases ha : a = k
    · by_cases h : k' = k
      · simp [put, look, ha, h]
      · simp [put, look, ha, h, Ne.symm h]
    · by_cases h : k' = k
      · rw [put, if_neg ha, look, if_neg (fun e => ha (e.trans h)), ih, if_pos h, if_pos h]
      · simp only [put, if_neg ha, look, ih, if_neg h]

theorem look_mem {α : Type} (k : Str) (d : List (Str × α)) (v : α) (h : look k d = some v) : (k, v) ∈ d := by
  induction d with
  | nil => cases h
  | cons q d ih =>
    obtain ⟨a, b⟩ := q
    rw [look] at h
    by_cases ha : a = k
    · rw [if_pos ha] at h; cases h; simp [ha]
    · rw [if_neg ha] at h; simp [ih h]

theorem look_none_iff {α : Type} (k : Str) (d : List (Str × α)) : look k d = none ↔ k ∉ d.map Prod.fst := by
  induction d with
  | nil => simp [look]
  | cons q d ih =>
    obtain ⟨a, b⟩ := q
    rw [look]
    by_cases ha : a = k
    · simp [ha]
    · rw [if_neg ha, ih]
      simp [Ne.symm ha]

theorem look_append {α : Type} (k : Str) (d e : List (Str × α)) : look k (d ++ e) = (look k d).or (look k e) := by
  induction d with
  | nil => rfl
  | cons q d ih =>
    obtain ⟨a, b⟩ := q
    rw [List.cons_append, look, look]
    by_cases ha : a = k
    · rw [if_pos ha, if_pos ha]; rfl
    · rw [if_neg ha, if_neg ha, ih]

theorem put_keys {α : Type} (k : Str) (v : α) (d : List (Str × α)) :
    (put k v d).map Prod.fst = if k ∈ d.map Prod.fst then d.map Prod.fst else d.map Prod.fst ++ [k] := by
  induction d with
  | nil => rfl
  | cons q d ih =>
    obtain ⟨a, b⟩ := q
    rw [put]
    by_cases ha : a = k
    · simp [ha]
    · rw [if_neg ha, List.map_cons, ih, List.map_cons]
      by_cases h : k ∈ d.map Prod.fst
      · rw [if_pos h, if_pos (List.mem_cons_of_mem _ h)]
      · rw [if_neg h, if_neg (by simp only [List.mem_cons, not_or]; exact ⟨Ne.symm ha, h⟩)]
        rfl

theorem setAttr_look {V : Type} (d : Kids V) (k : Str) (v : List V) (ha : k ∉ attrs) (hl : LineOrNone d k) :
    ∃ n c, look k (setAttr d k v) = some (.line n v c) ∧ (∀ n' v' c', look k d = some (.line n' v' c') → n = n' ∧ c = c') ∧
      (∀ k', k' ≠ k → look k' (setAttr d k v) = look k' d) ∧
      (setAttr d k v).map Prod.fst = if k ∈ d.map Prod.fst then d.map Prod.fst else d.map Prod.fst ++ [k] := by
  rw [setAttr, if_neg ha]
  cases h : look k d with
  | none =>
    refine ⟨Htc.cut2 k, [], ?_, (by intro _ _ _ e; cases e), ?_, put_keys _ _ _⟩
    · simp only; rw [look_put, if_pos rfl]
    · intro k' hk; simp only; rw [look_put, if_neg hk]
  | some x =>
    obtain ⟨n, w, c, hx⟩ := hl _ (look_mem k d x h) rfl
    simp only at hx
    subst hx
    refine ⟨n, c, ?_, (by intro _ _ _ e; cases e; exact ⟨rfl, rfl⟩), ?_, put_keys _ _ _⟩
    · simp only; rw [look_put, if_pos rfl]
    · intro k' hk; simp only; rw [look_put, if_neg hk]

theorem valuesAt_cons {V : Type} (k : Str) (p : List Str) (d : Kids V) : valuesAt (k :: p) d = match look k d with
    | none => none
    | some (.line _ v _) => if p = [] then some v else none
    | some (.sec _ _ _ kids) => valuesAt p kids
    | some (.out _ _ _ kids _) => valuesAt p kids := by
  rw [valuesAt, look_find]
  generalize Option.map Prod.snd (List.find? (fun q => decide (q.1 = k)) d) = o
  cases o with
  | none => rfl
  | some x => cases x <;> rfl

theorem valuesAt_sec {V : Type} (k : Str) (p : List Str) (d kids : Kids V) (h : HasSec d k kids) : valuesAt (k :: p) d = valuesAt p kids := by
  obtain ⟨x, h1, h2⟩ := h
  rw [valuesAt_cons, look_find, h1]
  rcases h2 with ⟨n, bc, ec, rfl⟩ | ⟨n, bc, ec, ss, rfl⟩ <;> rfl

theorem valuesAt_look {V : Type} (k : Str) (p : List Str) (d e : Kids V) (h : look k d = look k e) : valuesAt (k :: p) d = valuesAt (k :: p) e := by
  rw [valuesAt_cons, valuesAt_cons, h]

/-- a change of one path: its values are set, those of all other paths are kept, and so are the sections -/
structure Sets {V : Type} (d d' : Kids V) (path : List Str) (v : List V) : Prop where
  here : valuesAt path d' = some v
  other : ∀ p, p ≠ path → valuesAt p d' = valuesAt p d

theorem assign_sets {V : Type} (d : Kids V) (k : Str) (v : List V) (ha : k ∉ attrs) (hl : LineOrNone d k) :
    (assign k v d).2 = none ∧ Sets d (assign k v d).1 [k] v := by
  obtain ⟨n, c, h1, h2, h3, -⟩ := setAttr_look d k v ha hl
  refine ⟨rfl, ?_, ?_⟩
  · rw [assign, valuesAt_cons, h1]; rfl
  · intro p hp
    cases p with
    | nil => rfl
    | cons k' p =>
      by_cases hk : k' = k
      · subst hk
        have hpn : p ≠ [] := fun e => hp (by rw [e])
        rw [assign, valuesAt_cons, h1, valuesAt_cons]
        simp only [hpn, if_false]
        cases hd : look k' d with
        | none => rfl
        | some x =>
          obtain ⟨n', w, c', hx⟩ := hl _ (look_mem k' d x hd) rfl
          simp only at hx
          subst hx
          simp only [hpn, if_false]
      · exact valuesAt_look k' p _ _ (h3 k' hk)

theorem within_sets {V : Type} (d kids : Kids V) (k : Str) (f : Kids V → Kids V × Option Err) (path : List Str) (v : List V) (h : HasSec d k kids)
    (hf : (f kids).2 = none ∧ Sets kids (f kids).1 path v) :
    (within d k f).2 = none ∧ Sets d (within d k f).1 (k :: path) v ∧ HasSec (within d k f).1 k (f kids).1 ∧
      ∀ k', k' ≠ k → look k' (within d k f).1 = look k' d := by
  obtain ⟨x, h1, h2⟩ := h
  rw [← look_find] at h1
  have key : ∃ y, within d k f = (put k y d, none) ∧ ((∃ n bc ec, y = .sec n bc ec (f kids).1) ∨ ∃ n bc ec ss, y = .out n bc ec (f kids).1 ss) := by
    rcases h2 with ⟨n, bc, ec, rfl⟩ | ⟨n, bc, ec, ss, rfl⟩
    · exact ⟨_, by simp only [within, h1, hf.1], Or.inl ⟨n, bc, ec, rfl⟩⟩
    · exact ⟨_, by simp only [within, h1, hf.1], Or.inr ⟨n, bc, ec, ss, rfl⟩⟩
  obtain ⟨y, hw, hy⟩ := key
  rw [hw]
  have hsec : HasSec (put k y d) k (f kids).1 := ⟨y, by rw [← look_find, look_put, if_pos rfl], hy⟩
  have hoth : ∀ k', k' ≠ k → look k' (put k y d) = look k' d := fun k' hk => by rw [look_put, if_neg hk]
  have hold : HasSec d k kids := ⟨x, by rw [← look_find]; exact h1, h2⟩
  refine ⟨rfl, ⟨?_, ?_⟩, hsec, hoth⟩
  · rw [valuesAt_sec k path _ _ hsec]; exact hf.2.here
  · intro p hp
    cases p with
    | nil => rfl
    | cons k' p =>
      by_cases hk : k' = k
      · subst hk
        rw [valuesAt_sec k' p _ _ hsec, valuesAt_sec k' p _ _ hold]
        exact hf.2.other p (fun e => hp (by rw [e]))
      · exact valuesAt_look k' p _ _ (hoth k' hk)

theorem hasSec_look {V : Type} (d d' kids : Kids V) (k : Str) (h : look k d' = look k d) (hs : HasSec d k kids) : HasSec d' k kids := by
  obtain ⟨x, h1, h2⟩ := hs
  exact ⟨x, by rw [← look_find, h, look_find]; exact h1, h2⟩

mutual

theorem copy_plain {V : Type} : ∀ (x : Item V), Plain x → copy x = x
  | .line n v c, h => by rw [copy, Htc.cut2_id n h.1, h.2]
  | .sec n bc ec kids, h => by rw [copy, h.1, h.2.1, h.2.2.1, copyKids_plain kids h.2.2.2]
  | .out _ _ _ _ _, h => h.elim

theorem copyKids_plain {V : Type} : ∀ (d : List (Str × Item V)), PlainKids d → copyKids d = d
  | [], _ => rfl
  | (k, x) :: r, h => by rw [copyKids, copy_plain x h.1, copyKids_plain r h.2]
end

theorem filterE_ok {α : Type} (p : α → Except Err Bool) (q : α → Bool) (l : List α) (h : ∀ x ∈ l, p x = .ok (q x)) : filterE p l = .ok (l.filter q) := by
  induction l with
  | nil => rfl
  | cons x l ih =>
    rw [filterE, h x (by simp), ih (fun x hx => h x (by simp [hx]))]
    simp only [List.filter_cons]

theorem filterE_false {α : Type} (p : α → Except Err Bool) (hp : ∀ x, p x ≠ .ok true) (l r : List α) (h : filterE p l = .ok r) : r = [] := by
  induction l generalizing r with
  | nil => cases h; rfl
  | cons x l ih =>
    rw [filterE] at h
    cases hx : p x with
    | error e => rw [hx] at h; cases h
    | ok b =>
      cases b with
      | true => exact absurd hx (hp x)
      | false =>
        rw [hx] at h
        cases hl : filterE p l with
        | error e => rw [hl] at h; cases h
        | ok l' =>
          rw [hl] at h
          cases h
          exact ih l' hl

theorem hasField_fits {V : Type} [DecidableEq V] (field : Str) (v : V) (x : Item V)
    (h : ∀ kids, kidsOf x = some kids → ∀ y, (kids.find? fun p => p.1 = field).map Prod.snd = some y → ∃ n w ws c, y = .line n (w :: ws) c) :
    hasField field v x = .ok (fits field v x) := by
  rw [hasField, fits]
  cases hk : kidsOf x with
  | none => rfl
  | some kids =>
    simp only
    rw [valuesAt_cons]
    cases hl : look field kids with
    | none => rfl
    | some y =>
      obtain ⟨n, w, ws, c, rfl⟩ := h kids hk y (by rw [← look_find]; exact hl)
      simp

theorem items_filter {V : Type} (d : Kids V) (q : Item V → Bool) :
    (items d).filter q = ((d.filter fun p => q p.2).map Prod.snd).filter (fun x => nameOf x = "main_body".toList) ++
      ((d.filter fun p => q p.2).map Prod.snd).filter (fun x => nameOf x ≠ "main_body".toList) := by
  have hm : (d.filter fun p => q p.2).map Prod.snd = (d.map Prod.snd).filter q := by
    rw [List.filter_map]; rfl
  rw [items, List.filter_append, hm]
  congr 1
  · rw [List.filter_filter, List.filter_filter]
    exact List.filter_congr (fun x _ => Bool.and_comm _ _)
  · rw [List.filter_filter, List.filter_filter]
    exact List.filter_congr (fun x _ => Bool.and_comm _ _)

theorem parts_length {α : Type} (l : List α) (p : α → Prop) [DecidablePred p] :
    (l.filter (fun x => p x) ++ l.filter (fun x => ¬ p x)).length = l.length := by
  induction l with
  | nil => rfl
  | cons x l ih =>
    rw [List.length_append] at ih ⊢
    by_cases h : p x
    · rw [List.filter_cons_of_pos (by simpa using h), List.filter_cons_of_neg (by simpa using h)]
      simp only [List.length_cons]
      omega
    · rw [List.filter_cons_of_neg (by simpa using h), List.filter_cons_of_pos (by simpa using h)]
      simp only [List.length_cons]
      omega

theorem items_mem {V : Type} (d : Kids V) (x : Item V) (hx : x ∈ items d) : ∃ k, (k, x) ∈ d := by
  rw [items, List.mem_append, List.mem_filter, List.mem_filter] at hx
  rcases hx with hx | hx <;>
  · obtain ⟨q, hq, e⟩ := List.mem_map.1 hx.1
    exact ⟨q.1, e ▸ hq⟩

theorem single_filter {V : Type} (d : Kids V) (f : Item V → Bool) :
    (∀ k x, (d.filter fun q => f q.2) = [(k, x)] → single ((items d).filter f) = .ok x) ∧
    ((d.filter fun q => f q.2).length ≠ 1 → single ((items d).filter f) = .error .value) := by
  constructor
  · intro k x hq
    rw [items_filter, hq]
    by_cases hm : nameOf x = "main_body".toList
    · simp only [List.map_cons, List.map_nil]
      rw [List.filter_cons_of_pos (by show decide _ = true; exact decide_eq_true hm), List.filter_cons_of_neg (by show ¬ decide _ = true; rw [decide_eq_true_eq]; exact fun h => h hm)]
      rfl
    · simp only [List.map_cons, List.map_nil]
      rw [List.filter_cons_of_neg (by show ¬ decide _ = true; rw [decide_eq_true_eq]; exact hm), List.filter_cons_of_pos (by show decide _ = true; exact decide_eq_true hm)]
      rfl
  · intro hq
    have hl : ((items d).filter f).length ≠ 1 := by
      have := parts_length ((d.filter fun p => f p.2).map Prod.snd) (fun x => nameOf x = "main_body".toList)
      rw [items_filter, this, List.length_map]
      exact hq
    generalize (items d).filter f = l at hl
    match l, hl with
    | [], _ => rfl
    | [_], hl => exact absurd rfl hl
    | _ :: _ :: _, _ => rfl

theorem cut2_one (k : Str) (hn : ¬ ['_', '_'] <:+: k) (hu : k.getLast? ≠ some '_') : Htc.cut2 (k ++ "__1".toList) = k := by
  induction k with
  | nil => decide
  | cons c k ih =>
    have hs : ¬ startsWith (c :: (k ++ "__1".toList)) ['_', '_'] = true := by
      rw [startsWith, List.isPrefixOf_iff_prefix]
      intro hp
      rw [List.cons_prefix_cons] at hp
      obtain ⟨rfl, hp⟩ := hp
      cases k with
      | nil => exact hu rfl
      | cons e k =>
        rw [List.cons_append, List.cons_prefix_cons] at hp
        obtain ⟨rfl, -⟩ := hp
        exact hn ⟨[], k, rfl⟩
    rw [List.cons_append, Htc.cut2, if_neg hs, ih (fun hi => hn (hi.trans (List.suffix_cons c k).isInfix))]
    intro hl
    cases k with
    | nil => cases hl
    | cons e k => exact hu (by rw [List.getLast?_cons_cons]; exact hl)

theorem put_new {α : Type} (k : Str) (v : α) (d : List (Str × α)) (h : k ∉ d.map Prod.fst) : put k v d = d ++ [(k, v)] := by
  induction d with
  | nil => rfl
  | cons q d ih =>
    obtain ⟨a, b⟩ := q
    simp only [List.map_cons, List.mem_cons, not_or] at h
    rw [put, if_neg (fun e => h.1 e.symm), ih h.2]
    rfl

end Verif.HtcEdit
