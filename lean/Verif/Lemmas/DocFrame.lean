import Verif.Model.DocFrame
import Verif.Props.FlexDoc
import Verif.Lemmas.FlexBld
/-!
# Lemmas on the tables of FLEX documentation files
-/
namespace Verif.FlexDoc
open Verif.Py

/-- what is stored under a key: no single table, and only the tables of the known names -/
def EntryOk {F : Type} (k : Str) : Entry F → Prop
  | .one v => ∀ c r, v ≠ .frame c r
  | .group g => (g.map Prod.fst).Nodup ∧ ∀ q ∈ g, ∀ c r, q.2 = .frame c r → '#' :: (k ++ '_' :: q.1) ∈ tableNames

/-- the object as the reader leaves it -/
structure Ok {F : Type} (d : Doc F) : Prop where
  nodup : (d.map Prod.fst).Nodup
  keys : ∀ p ∈ d, '_' ∉ p.1
  entries : ∀ p ∈ d, EntryOk p.1 p.2

theorem store_mem {α : Type} (k : Str) (v : α) (d : List (Str × α)) (p : Str × α) (h : p ∈ store k v d) : p = (k, v) ∨ p ∈ d := by
  induction d with
  | nil => rw [store] at h; exact Or.inl (List.mem_singleton.1 h)
  | cons q d ih =>
    obtain ⟨a, b⟩ := q
    rw [store] at h
    by_cases ha : a = k
    · rw [if_pos ha] at h
      rcases List.mem_cons.1 h with h | h
      · left; rw [h, ha]
      · right; simp [h]
    · rw [if_neg ha] at h
      rcases List.mem_cons.1 h with h | h
      · right; simp [h]
      · rcases ih h with h | h
        · exact Or.inl h
        · right; simp [h]

theorem store_nodup {α : Type} (k : Str) (v : α) (d : List (Str × α)) (h : (d.map Prod.fst).Nodup) : ((store k v d).map Prod.fst).Nodup := by
  induction d with
  | nil => simp [store]
  | cons q d ih =>
    obtain ⟨a, b⟩ := q
    rw [List.map_cons, List.nodup_cons] at h
    rw [store]
    by_cases ha : a = k
    · rw [if_pos ha, List.map_cons, List.nodup_cons]; exact h
    · rw [if_neg ha, List.map_cons, List.nodup_cons]
      refine ⟨?_, ih h.2⟩
      intro hm
      obtain ⟨p, hp, e⟩ := List.mem_map.1 hm
      rcases store_mem k v d p hp with rfl | hp
      · exact ha e.symm
      · exact h.1 (List.mem_map.2 ⟨p, hp, e⟩)

theorem look_mem {α : Type} (k : Str) (d : List (Str × α)) (v : α) (h : look k d = some v) : (k, v) ∈ d := by
  induction d with
  | nil => cases h
  | cons q d ih =>
    obtain ⟨a, b⟩ := q
    rw [look] at h
    by_cases ha : a = k
    · rw [if_pos ha] at h; cases h; simp [ha]
    · rw [if_neg ha] at h; simp [ih h]

theorem look_none {α : Type} (k : Str) (d : List (Str × α)) (h : k ∉ d.map Prod.fst) : look k d = none := by
  cases hl : look k d with
  | none => rfl
  | some v => exact absurd (List.mem_map.2 ⟨_, look_mem k d v hl, rfl⟩) h

theorem store_ok {F : Type} (d : Doc F) (h : Ok d) (k : Str) (e : Entry F) (hk : '_' ∉ k) (he : EntryOk k e) : Ok (store k e d) := by
  refine ⟨store_nodup k e d h.nodup, ?_, ?_⟩
  · intro p hp
    rcases store_mem k e d p hp with rfl | hp
    · exact hk
    · exact h.keys p hp
  · intro p hp
    rcases store_mem k e d p hp with rfl | hp
    · exact he
    · exact h.entries p hp

theorem setSub_ok {F : Type} (d d' : Doc F) (h : Ok d) (k s : Str) (v : Val F) (hk : '_' ∉ k)
    (hv : ∀ c r, v = .frame c r → '#' :: (k ++ '_' :: s) ∈ tableNames) (hs : setSub d k s v = .ok d') : Ok d' := by
  rw [setSub] at hs
  cases hl : look k d with
  | none =>
    simp only [hl, Except.ok.injEq] at hs
    rw [← hs]
    refine store_ok d h k _ hk ⟨by simp, ?_⟩
    intro q hq c r e
    rw [List.mem_singleton] at hq
    subst hq
    exact hv c r e
  | some e =>
    cases e with
    | one w =>
      rw [hl] at hs
      cases w <;> cases hs
    | group g =>
      simp only [hl, Except.ok.injEq] at hs
      rw [← hs]
      obtain ⟨hn, hg⟩ := h.entries _ (look_mem k d _ hl)
      refine store_ok d h k _ hk ⟨store_nodup s v g hn, ?_⟩
      intro q hq c r e
      rcases store_mem s v g q hq with rfl | hq
      · exact hv c r e
      · exact hg q hq c r e

theorem adjustVal_frame {F : Type} (v : Val F) (c : List Str) (r : List (List F)) (h : adjustVal v = .frame c r) : ∃ c' r', v = .frame c' r' := by
  cases v with
  | frame c' r' => exact ⟨c', r', rfl⟩
  | num x => cases h
  | vec x => cases h
  | mat x => cases h

theorem adjust_ok {F : Type} (d : Doc F) (h : Ok d) : Ok (adjust d) := by
  rw [adjust]
  split
  · rename_i g hl
    split
    · rename_i v hv
      obtain ⟨hn, hg⟩ := h.entries _ (look_mem _ d _ hl)
      refine store_ok d h _ _ (by decide) ⟨store_nodup _ _ g hn, ?_⟩
      intro q hq c r e
      rcases store_mem _ _ g q hq with rfl | hq
      · exact (by decide +kernel : '#' :: ("Global".toList ++ '_' :: "Mode1_Shape".toList) ∈ tableNames)
      · exact hg q hq c r e
    · exact h
  · exact h

theorem key_no (name : Str) : '_' ∉ (keysOf name).1 := by
  have hd : ∃ a, (name = a ∨ ∃ more, name = a ++ '_' :: more) ∧ '_' ∉ a := by
    refine ⟨name.takeWhile (· ≠ '_'), ?_, ?_⟩
    · have e := List.takeWhile_append_dropWhile (p := fun c => decide (c ≠ '_')) (l := name)
      cases hdw : name.dropWhile (fun c => decide (c ≠ '_')) with
      | nil => left; rw [hdw, List.append_nil] at e; exact e.symm
      | cons c t =>
        right
        have hc : c = '_' := by
          have := List.head_dropWhile_not (l := name) (fun c => decide (c ≠ '_')) (by rw [hdw]; simp)
          simp only [hdw, List.head_cons] at this
          simpa using this
        subst hc
        refine ⟨t, ?_⟩
        rw [hdw] at e
        exact e.symm
    · intro hm
      have h := List.all_takeWhile (l := name) (p := fun c => decide (c ≠ '_'))
      rw [List.all_eq_true] at h
      exact absurd (h _ hm) (by decide)
  obtain ⟨a, h1, h2⟩ := hd
  rw [keysOf]
  simp only
  rw [FlexBld.splitOn_head '_' name a h1 h2]
  exact fun hm => h2 (List.mem_of_mem_drop hm)

theorem table_key (name : Str) (h : name ∈ tableNames) : '#' :: ((keysOf name).1 ++ '_' :: (keysOf name).2) = name := by
  have h' := (table_iff name).1 h
  have all : ∀ n ∈ arraysHeader, '#' :: ((keysOf n).1 ++ '_' :: (keysOf n).2) = n := by decide +kernel
  exact all name h'

theorem finish_ok {F : Type} (N : Num F) (d d' : Doc F) (h : Ok d) (name : Str) (hdr : Bool) (hn : hdr = true → name ∈ tableNames) (header : Str)
    (acc : List (List F)) (hf : finish N d name hdr header acc = .ok d') : Ok d' := by
  rw [finish] at hf
  simp only at hf
  split at hf
  · split at hf
    · split at hf
      · cases hf
      · rename_i hh _
        refine setSub_ok d d' h _ _ _ (key_no name) ?_ hf
        intro c r _
        rw [table_key name (hn hh)]
        exact hn hh
    · refine setSub_ok d d' h _ _ _ (key_no name) ?_ hf
      intro c r e
      cases e
  · cases hf

theorem dat_frame {F : Type} (flt : Str → F) (s : Str) (c : List Str) (r : List (List F)) : dat flt s ≠ .frame c r := by
  rw [dat]
  split <;> exact fun h => by cases h

/-- the place of the reader: a section with a header has a known name -/
def AtOk {F : Type} : At F → Prop
  | .scan => True
  | .head name hdr => hdr = true → name ∈ tableNames
  | .rows name hdr _ _ => hdr = true → name ∈ tableNames

theorem step_ok {F : Type} (N : Num F) (flt : Str → F) (d d' : Doc F) (h : Ok d) (l : Str) (a : At F) (hs : step N flt d l = .ok (a, d')) :
    Ok d' ∧ AtOk a := by
  rw [step] at hs
  simp only at hs
  split at hs
  · cases hs; exact ⟨h, trivial⟩
  split at hs
  · cases hs; exact ⟨h, trivial⟩
  split at hs
  · split at hs
    · rename_i hm
      cases hs
      exact ⟨h, fun _ => (table_iff _).2 hm⟩
    split at hs
    · cases hs
      exact ⟨h, fun e => by cases e⟩
    split at hs
    · cases hs; exact ⟨adjust_ok d h, trivial⟩
    split at hs
    · cases hr : setOne d (keysOf ((words l).headD [])).1 (dat flt (joinWith [' '] (words l).tail)) with
      | error e => rw [hr] at hs; cases hs
      | ok d2 =>
        rw [hr] at hs
        cases hs
        refine ⟨adjust_ok _ ?_, trivial⟩
        rw [setOne] at hr
        split at hr
        · cases hr
          exact store_ok d h _ _ (key_no _) (dat_frame flt _)
        · cases hr
    · cases hr : setSub d (keysOf ((words l).headD [])).1 (keysOf ((words l).headD [])).2 (dat flt (joinWith [' '] (words l).tail)) with
      | error e => rw [hr] at hs; cases hs
      | ok d2 =>
        rw [hr] at hs
        cases hs
        exact ⟨adjust_ok _ (setSub_ok d d2 h _ _ _ (key_no _) (fun c r e => absurd e (dat_frame flt _ c r)) hr), trivial⟩
  · cases hs; exact ⟨adjust_ok d h, trivial⟩

theorem go_ok {F : Type} (N : Num F) (flt : Str → F) (ls : List Str) (a : At F) (d d' : Doc F) (h : Ok d) (ha : AtOk a)
    (hg : go N flt a d ls = .ok d') : Ok d' := by
  induction ls generalizing a d with
  | nil =>
    cases a with
    | scan => rw [go] at hg; cases hg; exact h
    | head name hdr => rw [go] at hg; cases hg
    | rows name hdr hd acc => rw [go] at hg; exact finish_ok N d d' h name hdr ha hd acc hg
  | cons l ls ih =>
    have scan : ∀ d, Ok d → go N flt .scan d (l :: ls) = .ok d' → Ok d' := by
      intro d h hg
      rw [go] at hg
      cases hs : step N flt d l with
      | error e => rw [hs] at hg; cases hg
      | ok x =>
        obtain ⟨s, d2⟩ := x
        rw [hs] at hg
        obtain ⟨h1, h2⟩ := step_ok N flt d d2 h l s hs
        exact ih s d2 h1 h2 hg
    cases a with
    | scan => exact scan d h hg
    | head name hdr => rw [go] at hg; exact ih (.rows name hdr l []) d h ha hg
    | rows name hdr hd acc =>
      rw [go] at hg
      split at hg
      · split at hg
        · cases hg
        · rename_i row _
          exact ih (.rows name hdr hd (acc ++ [row])) d h ha hg
      · cases hf : finish N d name hdr hd acc with
        | error e => rw [hf] at hg; cases hg
        | ok d2 =>
          rw [hf] at hg
          refine scan d2 (finish_ok N d d2 h name hdr ha hd acc hf) ?_
          rw [go]
          exact hg

theorem read_ok {F : Type} (N : Num F) (flt : Str → F) (s : Str) (d : Doc F) (h : read N flt s = .ok d) : Ok d := by
  rw [read] at h
  split at h
  · cases h
  · split at h
    · exact go_ok N flt _ .scan [] d ⟨List.nodup_nil, (by simp), (by simp)⟩ trivial h
    · cases h

/-- the table of a value, if it is one -/
def frameOf {F : Type} : Val F → Option (Frame F)
  | .frame c r => some (c, r)
  | _ => none

theorem name_inj (k k' s s' : Str) (hk : '_' ∉ k) (hk' : '_' ∉ k') (h : k ++ '_' :: s = k' ++ '_' :: s') : k = k' ∧ s = s' := by
  induction k generalizing k' with
  | nil =>
    cases k' with
    | nil => simpa using h
    | cons c k' =>
      simp only [List.nil_append, List.cons_append, List.cons.injEq] at h
      exact absurd (by rw [← h.1]; exact List.mem_cons_self) hk'
  | cons c k ih =>
    cases k' with
    | nil =>
      simp only [List.nil_append, List.cons_append, List.cons.injEq] at h
      exact absurd (by simp [h.1]) hk
    | cons c' k' =>
      simp only [List.cons_append, List.cons.injEq] at h
      obtain ⟨e1, e2⟩ := ih k' (fun hm => hk (by simp [hm])) (fun hm => hk' (by simp [hm])) h.2
      exact ⟨by rw [h.1, e1], e2⟩

theorem look_addGroup {F : Type} (k : Str) (g : List (Str × Val F)) (hn : (g.map Prod.fst).Nodup) (dfs : List (Str × Frame F)) (n : Str) :
    look n (addGroup k g dfs) = match g.find? (fun q => decide (k ++ '_' :: q.1 = n) && (frameOf q.2).isSome) with
      | some q => frameOf q.2
      | none => look n dfs := by
  induction g generalizing dfs with
  | nil => rfl
  | cons q g ih =>
    obtain ⟨k2, v⟩ := q
    rw [List.map_cons, List.nodup_cons] at hn
    rw [addGroup, ih hn.2, List.find?_cons]
    by_cases he : k ++ '_' :: k2 = n
    · have hnone : g.find? (fun q => decide (k ++ '_' :: q.1 = n) && (frameOf q.2).isSome) = none := by
        rw [List.find?_eq_none]
        intro q hq
        simp only [Bool.and_eq_true, decide_eq_true_eq, not_and]
        intro e
        exfalso
        rw [← he] at e
        have := List.append_cancel_left e
        simp only [List.cons.injEq, true_and] at this
        exact hn.1 (List.mem_map.2 ⟨q, hq, this⟩)
      rw [hnone]
      cases v with
      | frame c r =>
        simp only [he, decide_true, frameOf, Option.isSome, Bool.and_self, addTable]
        rw [look_store, if_pos rfl]
      | num x => simp [frameOf, addTable]
      | vec x => simp [frameOf, addTable]
      | mat x => simp [frameOf, addTable]
    · simp only [he, decide_false, Bool.false_and]
      cases v with
      | frame c r => rw [addTable, look_store, if_neg (fun e => he e.symm)]
      | num x => rfl
      | vec x => rfl
      | mat x => rfl

theorem addGroup_nodup {F : Type} (k : Str) (g : List (Str × Val F)) (dfs : List (Str × Frame F)) (h : (dfs.map Prod.fst).Nodup) :
    ((addGroup k g dfs).map Prod.fst).Nodup := by
  induction g generalizing dfs with
  | nil => exact h
  | cons q g ih =>
    obtain ⟨k2, v⟩ := q
    rw [addGroup]
    apply ih
    cases v with
    | frame c r => exact store_nodup _ _ _ h
    | num x => exact h
    | vec x => exact h
    | mat x => exact h

theorem framesFrom_nodup {F : Type} (d : Doc F) (dfs : List (Str × Frame F)) (h : (dfs.map Prod.fst).Nodup) :
    ((framesFrom d dfs).map Prod.fst).Nodup := by
  induction d generalizing dfs with
  | nil => exact h
  | cons p d ih =>
    obtain ⟨k, e⟩ := p
    rw [framesFrom]
    apply ih
    cases e with
    | group g => exact addGroup_nodup k g dfs h
    | one v =>
      cases v with
      | frame c r => exact store_nodup _ _ _ h
      | num x => exact h
      | vec x => exact h
      | mat x => exact h

theorem look_frames_other {F : Type} (d : Doc F) (h : Ok d) (n : Str) (dfs : List (Str × Frame F)) (f : Frame F) (hf : look n (framesFrom d dfs) = some f) :
    look n dfs = some f ∨ ∃ k s c r, n = k ++ '_' :: s ∧ get d k (some s) = some (.frame c r) ∧ f = (c, r) := by
  induction d generalizing dfs with
  | nil => exact Or.inl hf
  | cons p d ih =>
    obtain ⟨k, e⟩ := p
    have hn := h.nodup
    rw [List.map_cons, List.nodup_cons] at hn
    have hok : Ok d := ⟨hn.2, fun p hp => h.keys p (by simp [hp]), fun p hp => h.entries p (by simp [hp])⟩
    rw [framesFrom] at hf
    rcases ih hok _ hf with h1 | ⟨k', s, c, r, h1, h2, h3⟩
    · have hent := h.entries (k, e) (by simp)
      cases e with
      | one v =>
        cases v with
        | frame c r => exact absurd rfl (hent c r)
        | num x => exact Or.inl h1
        | vec x => exact Or.inl h1
        | mat x => exact Or.inl h1
      | group g =>
        rw [addEntry, look_addGroup k g hent.1] at h1
        cases hq : g.find? (fun q => decide (k ++ '_' :: q.1 = n) && (frameOf q.2).isSome) with
        | none => rw [hq] at h1; exact Or.inl h1
        | some q =>
          right
          rw [hq] at h1
          have hp := List.find?_some hq
          simp only [Bool.and_eq_true, decide_eq_true_eq] at hp
          have hm := List.mem_of_find?_eq_some hq
          obtain ⟨k2, v⟩ := q
          cases v with
          | frame c r =>
            simp only [frameOf, Option.some.injEq] at h1
            refine ⟨k, k2, c, r, hp.1.symm, ?_, h1.symm⟩
            rw [get_some, look, if_pos rfl]
            exact look_of_mem g hent.1 _ _ hm
          | num x => cases hp.2
          | vec x => cases hp.2
          | mat x => cases hp.2
    · right
      refine ⟨k', s, c, r, h1, ?_, h3⟩
      rw [get_some] at h2 ⊢
      rw [look]
      have hne : k ≠ k' := by
        rintro rfl
        cases hl : look k d with
        | none => rw [hl] at h2; cases h2
        | some e' => exact hn.1 (List.mem_map.2 ⟨_, look_mem k d e' hl, rfl⟩)
      rw [if_neg hne]
      exact h2
where
  look_of_mem {α : Type} (g : List (Str × α)) (hn : (g.map Prod.fst).Nodup) (k : Str) (v : α) (hm : (k, v) ∈ g) : look k g = some v := by
    induction g with
    | nil => cases hm
    | cons q g ih =>
      obtain ⟨a, b⟩ := q
      rw [List.map_cons, List.nodup_cons] at hn
      rw [look]
      rcases List.mem_cons.1 hm with e | hm
      · cases e; rw [if_pos rfl]
      · rw [if_neg, ih hn.2 hm]
        rintro rfl
        exact hn.1 (List.mem_map.2 ⟨_, hm, rfl⟩)

theorem look_frames {F : Type} (d : Doc F) (h : Ok d) (k s : Str) (hk : '_' ∉ k) (c : List Str) (r : List (List F)) (dfs : List (Str × Frame F)) :
    (get d k (some s) = some (.frame c r) → look (k ++ '_' :: s) (framesFrom d dfs) = some (c, r)) ∧
    ((∀ c r, get d k (some s) ≠ some (.frame c r)) → look (k ++ '_' :: s) (framesFrom d dfs) = look (k ++ '_' :: s) dfs) := by
  induction d generalizing dfs with
  | nil => exact ⟨(fun e => by cases e), fun _ => rfl⟩
  | cons p d ih =>
    obtain ⟨k', e⟩ := p
    have hn := h.nodup
    rw [List.map_cons, List.nodup_cons] at hn
    have hok : Ok d := ⟨hn.2, fun p hp => h.keys p (by simp [hp]), fun p hp => h.entries p (by simp [hp])⟩
    have hk' : '_' ∉ k' := h.keys (k', e) (by simp)
    have hent := h.entries (k', e) (by simp)
    rw [framesFrom]
    by_cases hkk : k' = k
    · subst hkk
      have hrest : ∀ c r, get d k' (some s) ≠ some (.frame c r) := by
        intro c r hg
        rw [get_some, look_none k' d hn.1] at hg
        cases hg
      have h2 := (ih hok (addEntry k' e dfs)).2 hrest
      rw [h2, get_some, look, if_pos rfl]
      cases e with
      | one v =>
        refine ⟨(fun e => by cases e), fun _ => ?_⟩
        cases v with
        | frame c r => exact absurd rfl (hent c r)
        | num x => rfl
        | vec x => rfl
        | mat x => rfl
      | group g =>
        simp only [Option.bind_some]
        rw [addEntry, look_addGroup k' g hent.1]
        have hfind : ∀ q, g.find? (fun q => decide (k' ++ '_' :: q.1 = k' ++ '_' :: s) && (frameOf q.2).isSome) = some q →
            look s g = some q.2 ∧ (frameOf q.2).isSome := by
          intro q hq
          have hp := List.find?_some hq
          simp only [Bool.and_eq_true, decide_eq_true_eq] at hp
          have e := (name_inj _ _ _ _ hk hk hp.1).2
          refine ⟨?_, hp.2⟩
          rw [← e]
          exact look_frames_other.look_of_mem g hent.1 _ _ (List.mem_of_find?_eq_some hq)
        constructor
        · intro hl
          have hm := look_mem s g _ hl
          cases hq : g.find? (fun q => decide (k' ++ '_' :: q.1 = k' ++ '_' :: s) && (frameOf q.2).isSome) with
          | none =>
            rw [List.find?_eq_none] at hq
            exact absurd (by simp [frameOf]) (hq _ hm)
          | some q =>
            have := (hfind q hq).1
            rw [hl] at this
            simp only
            rw [← Option.some.inj this]
            rfl
        · intro hno
          cases hq : g.find? (fun q => decide (k' ++ '_' :: q.1 = k' ++ '_' :: s) && (frameOf q.2).isSome) with
          | none => rfl
          | some q =>
            obtain ⟨h1, h2⟩ := hfind q hq
            obtain ⟨k2, v⟩ := q
            cases v with
            | frame c r => exact absurd h1 (hno c r)
            | num x => cases h2
            | vec x => cases h2
            | mat x => cases h2
    · have hg : get ((k', e) :: d) k (some s) = get d k (some s) := by
        rw [get_some, get_some, look, if_neg hkk]
      have hl : look (k ++ '_' :: s) (addEntry k' e dfs) = look (k ++ '_' :: s) dfs := by
        cases e with
        | one v =>
          cases v with
          | frame c r => exact absurd rfl (hent c r)
          | num x => rfl
          | vec x => rfl
          | mat x => rfl
        | group g =>
          rw [addEntry, look_addGroup k' g hent.1]
          have : g.find? (fun q => decide (k' ++ '_' :: q.1 = k ++ '_' :: s) && (frameOf q.2).isSome) = none := by
            rw [List.find?_eq_none]
            intro q hq hp
            simp only [Bool.and_eq_true, decide_eq_true_eq] at hp
            exact hkk (name_inj _ _ _ _ hk' hk hp.1).1
          rw [this]
      rw [hg]
      obtain ⟨i1, i2⟩ := ih hok (addEntry k' e dfs)
      exact ⟨i1, fun hno => (i2 hno).trans hl⟩

end Verif.FlexDoc
