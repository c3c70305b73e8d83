import Verif.Spec.Sheets
import Verif.Lemmas.Str
import Mathlib.Data.List.Forall2
import Mathlib.Algebra.Order.Field.Basic
import Mathlib.Algebra.Order.Field.Rat
import Mathlib.Tactic.Ring
import Mathlib.Tactic.Linarith
/-!
# Lemmas on an Excel, TDMS or RAAW file
-/
namespace Verif.Sheets
open Verif.Py

section
variable {C : Type}

theorem dropRows_eq (s : Sheet C) : dropRows s = valueRows s := by
  apply List.filter_congr
  intro r _
  rw [Bool.eq_iff_iff]
  simp

theorem lt_width (j : Nat) : ∀ s : Sheet C, j < (s.map List.length).foldr max 0 ↔ ∃ r ∈ s, j < r.length
  | [] => by simp
  | r :: s => by
    rw [List.map_cons, List.foldr_cons, lt_max_iff, lt_width j s]
    simp

theorem cell_lt (r : List (Option C)) (j : Nat) (h : (cellOf r j).isSome) : j < r.length := by
  by_contra hj
  rw [cellOf, List.getElem?_eq_none (by omega)] at h
  cases h

theorem cell_mem (r : List (Option C)) : (∃ c ∈ r, c.isSome) ↔ ∃ j, (cellOf r j).isSome := by
  constructor
  · rintro ⟨c, hc, h⟩
    obtain ⟨j, hj, rfl⟩ := List.mem_iff_getElem.1 hc
    exact ⟨j, by rw [cellOf, List.getElem?_eq_getElem hj]; exact h⟩
  · rintro ⟨j, h⟩
    have hj := cell_lt r j h
    refine ⟨r[j], List.getElem_mem _, ?_⟩
    rw [cellOf, List.getElem?_eq_getElem hj] at h
    exact h

theorem mem_keptCols (s : Sheet C) (j : Nat) : j ∈ keptCols s ↔ ∃ r ∈ s, (cellOf r j).isSome := by
  rw [keptCols, List.mem_filter, List.mem_range, lt_width, List.any_eq_true]
  constructor
  · rintro ⟨_, r, hr, h⟩
    exact ⟨r, hr, h⟩
  · rintro ⟨r, hr, h⟩
    exact ⟨⟨r, hr, cell_lt r j h⟩, r, hr, h⟩

theorem map_cells (r : List (Option C)) : (List.range r.length).map (cellOf r) = r := by
  apply List.ext_getElem
  · simp
  · intro i h1 h2
    rw [List.getElem_map, List.getElem_range, cellOf, List.getElem?_eq_getElem h2]
    rfl

theorem width_full (f : Frame C) (h : Full f) : ((toSheet f).map List.length).foldr max 0 = f.cols.length := by
  apply le_antisymm
  · by_contra hn
    obtain ⟨r, hr, hlt⟩ := (lt_width f.cols.length (toSheet f)).1 (by omega)
    rcases List.mem_cons.1 hr with rfl | hr
    · omega
    · have := h.width r hr
      omega
  · rw [toSheet, List.map_cons, List.foldr_cons]
    exact le_max_left ..

theorem filterMap_all {A B : Type} (f : A → Option B) (g : A → B) : ∀ l : List A, (∀ a ∈ l, f a = some (g a)) → l.filterMap f = l.map g
  | [], _ => rfl
  | a :: l, h => by
    rw [List.filterMap_cons, h a (List.mem_cons_self ..), List.map_cons]
    simp only
    rw [filterMap_all f g l fun x hx => h x (List.mem_cons_of_mem _ hx)]

end

section
variable {V : Type}

theorem quoted_plain (s : Str) (h : '\'' ∉ s) : quoted s = '\'' :: s ++ ['\''] := by
  rw [quoted]
  congr 2
  have : (fun c : Char => if c = '\'' then ['\'', '\''] else [c]) = fun c => if c = '\'' then ['\'', '\''] else [c] := rfl
  induction s with
  | nil => rfl
  | cons a s ih =>
    rw [List.flatMap_cons, ih (fun hm => h (List.mem_cons_of_mem _ hm)), if_neg (fun ha : a = '\'' => h (ha ▸ List.mem_cons_self ..))]
    rfl

theorem noQuotes_plain (s : Str) (h : '\'' ∉ s) : noQuotes s = s := by
  rw [noQuotes, List.filter_eq_self]
  intro c hc
  simp only [decide_eq_true_eq]
  rintro rfl
  exact h hc

theorem noQuotes_append (a b : Str) : noQuotes (a ++ b) = noQuotes a ++ noQuotes b := List.filter_append ..

theorem noQuotes_quoted (s : Str) (h : '\'' ∉ s) : noQuotes (quoted s) = s := by
  rw [quoted_plain s h, List.cons_append, show '\'' :: (s ++ ['\'']) = ['\''] ++ (s ++ ['\'']) from rfl, noQuotes_append, noQuotes_append, noQuotes_plain s h]
  have : noQuotes ['\''] = [] := by decide
  rw [this]
  simp

theorem noQuotes_slash (s : Str) : noQuotes ('/' :: s) = '/' :: noQuotes s := by
  rw [show '/' :: s = ['/'] ++ s from rfl, noQuotes_append]
  rfl

theorem channelKeys_eq : ∀ (objs : List Obj), (∀ o ∈ objs, o.Plain) → channelKeys (objs.map Obj.path) = channelsOf objs
  | [], _ => rfl
  | o :: objs, h => by
    have ih := channelKeys_eq objs fun x hx => h x (List.mem_cons_of_mem _ hx)
    have ho := h o (List.mem_cons_self ..)
    simp only [channelKeys, channelsOf, List.map_cons] at ih ⊢
    cases o with
    | root =>
      rw [List.filterMap_cons, List.filterMap_cons]
      have : splitOn '/' (noQuotes Obj.root.path) = [[], []] := by decide
      rw [this]
      exact ih
    | group g =>
      rw [List.filterMap_cons, List.filterMap_cons]
      have : splitOn '/' (noQuotes (Obj.group g).path) = [[], g] := by
        rw [Obj.path, noQuotes_slash, noQuotes_quoted g ho.2]
        rw [splitOn, if_pos rfl, splitOn_noSep '/' g ho.1]
      rw [this]
      exact ih
    | channel g c =>
      rw [List.filterMap_cons, List.filterMap_cons]
      have : splitOn '/' (noQuotes (Obj.channel g c).path) = [[], g, c] := by
        rw [Obj.path, List.cons_append, noQuotes_slash, noQuotes_append, noQuotes_slash, noQuotes_quoted g ho.2.1, noQuotes_quoted c ho.2.2.2]
        rw [splitOn, if_pos rfl, splitOn_append '/' g c ho.1, splitOn_noSep '/' c ho.2.2.1]
      rw [this]
      simp only
      rw [ih]

theorem channels_ok (obj : Str → Str → Option (List V × List V)) : ∀ (l : List (Str × Str)) (xs : List (List V × List V)),
    channels obj l = .ok xs ↔ List.Forall₂ (fun k x => obj k.1 k.2 = some x) l xs
  | [], xs => by
    rw [channels]
    constructor
    · intro h
      obtain rfl := Except.ok.inj h
      exact .nil
    · intro h
      cases h
      rfl
  | (g, c) :: l, xs => by
    rw [channels]
    constructor
    · intro h
      split at h
      · cases h
      next x hx =>
      split at h
      · cases h
      next xs' hxs =>
      obtain rfl := Except.ok.inj h
      exact .cons hx ((channels_ok obj l _).1 hxs)
    · intro h
      cases h with
      | cons hx hr =>
        rw [hx]
        simp only
        rw [(channels_ok obj l _).2 hr]

theorem several_false {A : Type} [DecidableEq A] (l : List A) (h : several l = false) : ∀ a ∈ l, ∀ b ∈ l, a = b := by
  cases l with
  | nil => intro a ha; cases ha
  | cons x l =>
    have key : ∀ a ∈ x :: l, a = x := by
      intro a ha
      rcases List.mem_cons.1 ha with rfl | ha
      · rfl
      · by_contra hne
        rw [several, List.any_eq_false] at h
        exact h a ha (by simpa using hne)
    intro a ha b hb
    rw [key a ha, key b hb]

theorem several_of {A : Type} [DecidableEq A] (l : List A) (h : ∀ a ∈ l, ∀ b ∈ l, a = b) : several l = false := by
  cases l with
  | nil => rfl
  | cons x l =>
    rw [several, List.any_eq_false]
    intro a ha
    simpa using h a (List.mem_cons_of_mem _ ha) x (List.mem_cons_self ..)

theorem extremes_ok (op : V → V → V) : ∀ (l : List (List V)) (xs : List V), extremes op l = .ok xs → List.Forall₂ (fun t x => ∃ a r, t = a :: r ∧ x = r.foldl op a) l xs
  | [], xs, h => by
    obtain rfl := Except.ok.inj h
    exact .nil
  | [] :: l, xs, h => by cases h
  | (a :: r) :: l, xs, h => by
    rw [extremes] at h
    split at h
    · cases h
    next xs' hxs =>
    obtain rfl := Except.ok.inj h
    exact .cons ⟨a, r, rfl, rfl⟩ (extremes_ok op l xs' hxs)

theorem extremes_total (op : V → V → V) : ∀ (l : List (List V)), (∀ t ∈ l, t ≠ []) → ∃ xs, extremes op l = .ok xs
  | [], _ => ⟨[], rfl⟩
  | [] :: l, h => absurd rfl (h [] (List.mem_cons_self ..))
  | (a :: r) :: l, h => by
    obtain ⟨xs, hxs⟩ := extremes_total op l fun t ht => h t (List.mem_cons_of_mem _ ht)
    exact ⟨_, by rw [extremes, hxs]⟩

theorem forall2_right {A B : Type} {R : A → B → Prop} : ∀ {l : List A} {m : List B}, List.Forall₂ R l m → ∀ b ∈ m, ∃ a ∈ l, R a b
  | _, _, .nil, b, hb => by cases hb
  | _, _, .cons h hr, b, hb => by
    rcases List.mem_cons.1 hb with rfl | hb
    · exact ⟨_, List.mem_cons_self .., h⟩
    · obtain ⟨a, ha, h⟩ := forall2_right hr b hb
      exact ⟨a, List.mem_cons_of_mem _ ha, h⟩

theorem forall2_left {A B : Type} {R : A → B → Prop} : ∀ {l : List A} {m : List B}, List.Forall₂ R l m → ∀ a ∈ l, ∃ b ∈ m, R a b
  | _, _, .nil, b, hb => by cases hb
  | _, _, .cons h hr, b, hb => by
    rcases List.mem_cons.1 hb with rfl | hb
    · exact ⟨_, List.mem_cons_self .., h⟩
    · obtain ⟨a, ha, h⟩ := forall2_left hr b hb
      exact ⟨a, List.mem_cons_of_mem _ ha, h⟩

theorem tdms_ok [LinearOrder V] (obj : Str → Str → Option (List V × List V)) (paths : List Str) (tab : List (Str × List V)) (h : tdms obj paths = .ok tab) :
    ∃ xs mins maxs, List.Forall₂ (fun k x => obj k.1 k.2 = some x) (channelKeys paths) xs ∧ extremes min (xs.map Prod.snd) = .ok mins ∧ extremes max (xs.map Prod.snd) = .ok maxs ∧
      several ((xs.map Prod.snd).map List.length) = false ∧ several mins = false ∧ several maxs = false ∧
      ∃ t, (xs.map Prod.snd).head? = some t ∧ (∀ x ∈ xs, x.1.length = t.length) ∧ tab = ("Time_[s]".toList, t) :: ((channelKeys paths).map Prod.snd).zip (xs.map Prod.fst) := by
  unfold tdms at h
  simp only at h
  split at h
  · cases h
  next xs hxs =>
  split at h
  · cases h
  next mins hmin =>
  split at h
  · cases h
  next maxs hmax =>
  split at h
  · cases h
  next h1 =>
  split at h
  · cases h
  next h2 =>
  split at h
  · cases h
  next h3 =>
  split at h
  · cases h
  next t rest ht =>
  split at h
  · next hall =>
    obtain rfl := Except.ok.inj h
    refine ⟨xs, mins, maxs, (channels_ok _ _ _).1 hxs, hmin, hmax, by simpa using h1, by simpa using h2, by simpa using h3, t, by rw [ht]; rfl, ?_, rfl⟩
    intro x hx
    simpa using List.all_eq_true.1 hall x hx
  · cases h

theorem zip_columns (obj : Str → Str → Option (List V × List V)) : ∀ (ks : List (Str × Str)) (xs : List (List V × List V)), List.Forall₂ (fun k x => obj k.1 k.2 = some x) ks xs →
    List.Forall₂ (fun k col => col.1 = k.2 ∧ ∃ t, obj k.1 k.2 = some (col.2, t)) ks ((ks.map Prod.snd).zip (xs.map Prod.fst))
  | [], [], _ => .nil
  | k :: ks, x :: xs, .cons h hr => .cons ⟨rfl, x.2, h⟩ (zip_columns obj ks xs hr)

theorem forall2_exists {A B : Type} (R : A → B → Prop) : ∀ l : List A, (∀ a ∈ l, ∃ b, R a b) → ∃ m, List.Forall₂ R l m
  | [], _ => ⟨[], .nil⟩
  | a :: l, h => by
    obtain ⟨b, hb⟩ := h a (List.mem_cons_self ..)
    obtain ⟨m, hm⟩ := forall2_exists R l fun x hx => h x (List.mem_cons_of_mem _ hx)
    exact ⟨b :: m, .cons hb hm⟩

/-- the smallest and largest value of an increasing list -/
theorem foldl_min [LinearOrder V] (a : V) : ∀ (l : List V), (∀ x ∈ l, a ≤ x) → l.foldl min a = a
  | [], _ => rfl
  | x :: l, h => by
    rw [List.foldl_cons, min_eq_left (h x (List.mem_cons_self ..))]
    exact foldl_min a l fun y hy => h y (List.mem_cons_of_mem _ hy)

theorem foldl_max_append [LinearOrder V] (a z : V) (l : List V) (h : ∀ x ∈ a :: l, x ≤ z) : (l ++ [z]).foldl max a = z := by
  rw [List.foldl_append]
  have : l.foldl max a ≤ z := by
    have key : ∀ (l : List V) (b : V), b ≤ z → (∀ x ∈ l, x ≤ z) → l.foldl max b ≤ z := by
      intro l
      induction l with
      | nil => intro b hb _; exact hb
      | cons x l ih =>
        intro b hb hx
        exact ih _ (max_le hb (hx x (List.mem_cons_self ..))) fun y hy => hx y (List.mem_cons_of_mem _ hy)
    exact key l a (h a (List.mem_cons_self ..)) fun x hx => h x (List.mem_cons_of_mem _ hx)
  rw [List.foldl_cons, List.foldl_nil, max_eq_right this]

/-- the times of a channel -/
def track [Field V] (n : Nat) (t0 dt : V) : List V := (List.range n).map fun i : Nat => t0 + (i : V) * dt

theorem track_ends [Field V] [LinearOrder V] [IsStrictOrderedRing V] (n : Nat) (t0 dt : V) (hd : 0 < dt) (a : V) (r : List V) (h : track n t0 dt = a :: r) :
    r.foldl min a = t0 ∧ r.foldl max a = t0 + ((n - 1 : Nat) : V) * dt := by
  cases n with
  | zero => cases h
  | succ n =>
    have le : ∀ i j : Nat, i ≤ j → t0 + (i : V) * dt ≤ t0 + (j : V) * dt := by
      intro i j hij
      have : (i : V) ≤ j := by exact_mod_cast hij
      have := mul_le_mul_of_nonneg_right this hd.le
      linarith
    have h0 := h
    rw [track, List.range_succ_eq_map, List.map_cons, List.map_map] at h
    obtain ⟨rfl, rfl⟩ := List.cons.inj h
    constructor
    · rw [foldl_min]
      · simp
      · intro x hx
        obtain ⟨i, _, rfl⟩ := List.mem_map.1 hx
        exact le 0 (i + 1) (by omega)
    · rw [Nat.add_sub_cancel]
      cases n with
      | zero => simp
      | succ n =>
        rw [List.range_succ, List.map_append, List.map_singleton]
        apply foldl_max_append
        intro x hx
        rcases List.mem_cons.1 hx with rfl | hx
        · exact le 0 (n + 1) (by omega)
        · obtain ⟨i, hi, rfl⟩ := List.mem_map.1 hx
          exact le (i + 1) (n + 1) (by have := List.mem_range.1 hi; omega)

theorem column_is (nan : V) (n : Nat) (x : Str × List V) (h : x.2.length ≤ n) : ColumnIs nan n x (x.1, x.2 ++ List.replicate (n - x.2.length) nan) := by
  refine ⟨rfl, h, by simp; omega, fun i hi => ?_⟩
  simp only
  by_cases hl : i < x.2.length
  · rw [List.getElem?_append_left hl, List.getElem?_eq_getElem hl]
    rfl
  · rw [List.getElem?_append_right (by omega), List.getElem?_replicate, if_pos (by omega), List.getElem?_eq_none (by omega)]
    rfl

theorem toFrame_ok (nan : V) (n : Nat) (cols out : List (Str × List V)) (h : toFrame nan n cols = .ok out) : List.Forall₂ (ColumnIs nan n) cols out := by
  rw [toFrame] at h
  split at h
  · next ha =>
    obtain rfl := Except.ok.inj h
    rw [List.all_eq_true] at ha
    rw [List.forall₂_map_right_iff]
    apply List.forall₂_same.2
    intro x hx
    exact column_is nan n x (by simpa using ha x hx)
  · cases h

theorem raaw_start {T : Type} [DecidableEq V] (nan fastStep slowStep : V) (fastTime slowTime : List V) (sigs : List (Signal V T)) (r : Raaw V T)
    (h : raaw nan fastStep slowStep fastTime slowTime sigs = .ok r) : ∃ last, sigs.getLast? = some last ∧ r.start = last.start := by
  unfold raaw at h
  split at h
  · cases h
  next last hl =>
  split at h
  · cases h
  split at h
  · cases h
  obtain rfl := Except.ok.inj h
  exact ⟨last, hl, rfl⟩

end

end Verif.Sheets
