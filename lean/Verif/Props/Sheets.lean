import Verif.Lemmas.Sheets
import Verif.Lemmas.Str
import Mathlib.Data.List.Forall2
import Mathlib.Algebra.Order.Field.Basic
import Mathlib.Algebra.Order.Field.Rat
import Mathlib.Tactic.Ring
import Mathlib.Tactic.Linarith
/-!
# Tables of Excel, TDMS and RAAW files

Properties C210 to C215.
-/
namespace Verif.Sheets
open Verif.Py

section
variable {C : Type}

/-- **C210.** The table of a sheet has the columns and the rows that have a value, in their order; the first such row has the names.  A sheet without values gives none. -/
theorem C210 (s : Sheet C) :
    (readSheet s = none ↔ ∀ r ∈ s, ∀ c ∈ r, c = none) ∧
    ∀ f, readSheet s = some f → ∃ (h : List (Option C)) (body : Sheet C) (J : List Nat), valueRows s = h :: body ∧ J.Pairwise (· < ·) ∧ (∀ j, j ∈ J ↔ ∃ r ∈ s, ((r[j]?).join).isSome) ∧
      f.cols = J.map (fun j => (h[j]?).join) ∧ f.rows = body.map fun r => J.map fun j => (r[j]?).join := by
  have hkeep : ∀ r, r ∈ valueRows s ↔ r ∈ s ∧ ∃ c ∈ r, c.isSome := by
    intro r
    rw [valueRows, List.mem_filter]
    simp
  rw [readSheet]
  simp only [dropRows_eq]
  constructor
  · cases hv : valueRows s with
    | nil =>
      simp only [true_iff]
      intro r hr c hc
      by_contra hne
      have : r ∈ valueRows s := (hkeep r).2 ⟨hr, c, hc, Option.isSome_iff_ne_none.2 hne⟩
      rw [hv] at this
      cases this
    | cons h body =>
      simp only [reduceCtorEq, false_iff]
      intro hn
      obtain ⟨hm, c, hc, hs⟩ := (hkeep h).1 (hv ▸ List.mem_cons_self ..)
      rw [hn h hm c hc] at hs
      cases hs
  · intro f hf
    cases hv : valueRows s with
    | nil => rw [hv] at hf; cases hf
    | cons h body =>
      rw [hv] at hf
      obtain rfl := Option.some.inj hf
      refine ⟨h, body, keptCols (h :: body), rfl, ?_, ?_, rfl, rfl⟩
      · exact List.Pairwise.filter _ List.pairwise_lt_range
      · intro j
        rw [mem_keptCols, ← hv]
        constructor
        · rintro ⟨r, hr, h⟩
          exact ⟨r, ((hkeep r).1 hr).1, h⟩
        · rintro ⟨r, hr, h⟩
          exact ⟨r, (hkeep r).2 ⟨hr, (cell_mem r).2 ⟨j, h⟩⟩, h⟩

/-- **C210**, all the sheets: those with values, in their order. -/
theorem C210_book (book : List (Str × Sheet C)) (n : Str) (f : Frame C) : (n, f) ∈ readBook book ↔ ∃ s, (n, s) ∈ book ∧ readSheet s = some f := by
  rw [readBook, List.mem_filterMap]
  constructor
  · rintro ⟨⟨n', s⟩, hm, h⟩
    cases hs : readSheet s with
    | none => rw [hs] at h; cases h
    | some f' =>
      rw [hs] at h
      obtain ⟨rfl, rfl⟩ := Prod.mk.inj (Option.some.inj h)
      exact ⟨s, hm, hs⟩
  · rintro ⟨s, hm, hs⟩
    exact ⟨(n, s), hm, by rw [hs]; rfl⟩

/-- **C211 fails**: a row without values is lost. -/
theorem C211_fails : ∃ f : Frame Nat, f.cols = [some 1, some 2] ∧ (∀ r ∈ f.rows, r.length = 2) ∧ readBook (writeBook [("a".toList, f)]) ≠ [("a".toList, f)] :=
  ⟨⟨[some 1, some 2], [[some 3, some 4], [none, none], [some 5, none]]⟩, rfl, by decide, by decide⟩

/-- **C211, the part that holds**: tables with a name for each column and a value in each row are given back. -/
theorem C211_partial (d : List (Str × Frame C)) (h : ∀ x ∈ d, Full x.2) : readBook (writeBook d) = d := by
  rw [readBook, writeBook, List.filterMap_map]
  rw [filterMap_all _ id d]
  · simp
  intro x hx
  have hf := h x hx
  have hsheet : readSheet (toSheet x.2) = some x.2 := by
    have hdrop : dropRows (toSheet x.2) = toSheet x.2 := by
      rw [dropRows, List.filter_eq_self]
      intro r hr
      rw [List.any_eq_true]
      rcases List.mem_cons.1 hr with rfl | hr
      · obtain ⟨c, l, hc⟩ := List.exists_cons_of_ne_nil hf.some
        exact ⟨c, hc ▸ List.mem_cons_self .., hf.names c (hc ▸ List.mem_cons_self ..)⟩
      · exact hf.values r hr
    have hcols : keptCols (toSheet x.2) = List.range x.2.cols.length := by
      rw [keptCols, width_full x.2 hf, List.filter_eq_self]
      intro j hj
      rw [List.any_eq_true]
      have hj := List.mem_range.1 hj
      refine ⟨x.2.cols, List.mem_cons_self .., ?_⟩
      rw [cellOf, List.getElem?_eq_getElem hj]
      exact hf.names _ (List.getElem_mem _)
    rw [readSheet]
    simp only [hdrop, hcols]
    rw [toSheet]
    simp only
    congr 1
    have hrows : x.2.rows.map (fun r => (List.range x.2.cols.length).map (cellOf r)) = x.2.rows := by
      conv_rhs => rw [← List.map_id x.2.rows]
      apply List.map_congr_left
      intro r hr
      rw [← hf.width r hr]
      exact map_cells r
    rw [hrows, map_cells]
  simp only [Function.comp, hsheet, Option.map_some, id]

/-- **C211**, what has been read: if its columns have names it is given back. -/
theorem C211_again_partial (s : Sheet C) (f : Frame C) (h : readSheet s = some f) (hn : ∀ c ∈ f.cols, c.isSome) (n : Str) : readBook (writeBook [(n, f)]) = [(n, f)] := by
  apply C211_partial
  intro x hx
  obtain rfl := List.mem_singleton.1 hx
  obtain ⟨hd, body, J, hv, _, hJ, hc, hr⟩ := (C210 s).2 f h
  have hmem : ∀ r ∈ hd :: body, r ∈ s ∧ ∃ c ∈ r, c.isSome := by
    intro r hr
    rw [← hv, valueRows, List.mem_filter] at hr
    exact ⟨hr.1, by simpa using hr.2⟩
  refine ⟨?_, hn, ?_, ?_⟩
  · obtain ⟨hs, hval⟩ := hmem hd (List.mem_cons_self ..)
    obtain ⟨j, hj⟩ := (cell_mem hd).1 hval
    have : j ∈ J := (hJ j).2 ⟨hd, hs, hj⟩
    intro hnil
    simp only at hnil
    rw [hc, List.map_eq_nil_iff] at hnil
    rw [hnil] at this
    cases this
  · intro r hrr
    simp only at hrr ⊢
    rw [hr] at hrr
    obtain ⟨r', _, rfl⟩ := List.mem_map.1 hrr
    rw [hc, List.length_map, List.length_map]
  · intro r hrr
    simp only at hrr
    rw [hr] at hrr
    obtain ⟨r', hr', rfl⟩ := List.mem_map.1 hrr
    obtain ⟨hs, hval⟩ := hmem r' (List.mem_cons_of_mem _ hr')
    obtain ⟨j, hj⟩ := (cell_mem r').1 hval
    exact ⟨_, List.mem_map.2 ⟨j, (hJ j).2 ⟨r', hs, hj⟩, rfl⟩, hj⟩

end

/-- an empty row and an empty column on both sides of a table -/
example : readSheet [[none, none, none], [none, some 1, some 2], [none, none, none], [none, some 3, none]] = some ⟨[some 1, some 2], [[some 3, none]]⟩ := by decide

example : Full (⟨[some 1, some 2], [[some 3, none]]⟩ : Frame Nat) := ⟨by decide, by decide, by decide, by decide⟩

section
variable {V : Type}

/-- **C212 fails**: a channel with a slash in its name is left out. -/
theorem C212_fails : ∃ (obj : Str → Str → Option (List Int × List Int)) (objs : List Obj) (tab : List (Str × List Int)),
    (∀ k ∈ channelsOf objs, (obj k.1 k.2).isSome) ∧ tdms obj (objs.map Obj.path) = .ok tab ∧ ∃ k ∈ channelsOf objs, k.2 ∉ tab.map Prod.fst := by
  refine ⟨fun _ c => if c = ['u'] then some ([5, 6], [0, 1]) else some ([7, 8], [0, 1]), [.root, .group ['g'], .channel ['g'] ['u'], .channel ['g'] "m/s".toList],
    [("Time_[s]".toList, [0, 1]), (['u'], [5, 6])], by decide +kernel, by decide +kernel, (['g'], "m/s".toList), by decide, by decide⟩

/-- **C212, the part that holds**: with names without slashes and quotes the table has the time and a column for each channel, in order. -/
theorem C212_partial [LinearOrder V] (obj : Str → Str → Option (List V × List V)) (objs : List Obj) (hp : ∀ o ∈ objs, o.Plain) (tab : List (Str × List V))
    (h : tdms obj (objs.map Obj.path) = .ok tab) :
    ∃ t cols, tab = ("Time_[s]".toList, t) :: cols ∧ List.Forall₂ (fun k col => col.1 = k.2 ∧ ∃ t', obj k.1 k.2 = some (col.2, t') ∧ t'.length = t.length ∧ col.2.length = t.length)
      (channelsOf objs) cols ∧ ∃ k ∈ (channelsOf objs).head?, ∃ s, obj k.1 k.2 = some (s, t) := by
  obtain ⟨xs, mins, maxs, hx, _, _, hl, _, _, t, ht, hlen, rfl⟩ := tdms_ok obj _ tab h
  rw [channelKeys_eq objs hp] at hx ⊢
  refine ⟨t, _, rfl, ?_, ?_⟩
  · have hl := several_false _ hl
    have hmem : t.length ∈ (xs.map Prod.snd).map List.length := List.mem_map.2 ⟨t, List.mem_of_head? ht, rfl⟩
    have key : ∀ (ks : List (Str × Str)) (ys : List (List V × List V)), List.Forall₂ (fun k x => obj k.1 k.2 = some x) ks ys → (∀ y ∈ ys, y ∈ xs) →
        List.Forall₂ (fun k col => col.1 = k.2 ∧ ∃ t', obj k.1 k.2 = some (col.2, t') ∧ t'.length = t.length ∧ col.2.length = t.length) ks ((ks.map Prod.snd).zip (ys.map Prod.fst)) := by
      intro ks ys hf
      induction hf with
      | nil => intro _; exact .nil
      | cons h _ ih =>
        intro hy
        refine .cons ⟨rfl, _, h, ?_, ?_⟩ (ih fun y hy' => hy y (List.mem_cons_of_mem _ hy'))
        · exact hl _ (List.mem_map.2 ⟨_, List.mem_map.2 ⟨_, hy _ (List.mem_cons_self ..), rfl⟩, rfl⟩) _ hmem
        · exact hlen _ (hy _ (List.mem_cons_self ..))
    exact key _ _ hx fun _ h => h
  · generalize channelsOf objs = ks at hx
    cases hx with
    | nil => cases ht
    | @cons k x _ _ h1 _ =>
      refine ⟨k, rfl, x.1, ?_⟩
      have : x.2 = t := Option.some.inj ht
      rw [h1, ← this]

/-- **C212, the part that holds**, the other direction: channels with the same times and as many samples give the table. -/
theorem C212_total_partial [LinearOrder V] (obj : Str → Str → Option (List V × List V)) (objs : List Obj) (hp : ∀ o ∈ objs, o.Plain) (t : List V) (ht : t ≠ [])
    (hne : channelsOf objs ≠ []) (ho : ∀ k ∈ channelsOf objs, ∃ s, obj k.1 k.2 = some (s, t) ∧ s.length = t.length) : ∃ tab, tdms obj (objs.map Obj.path) = .ok tab := by
  obtain ⟨xs, hxs⟩ := forall2_exists (fun k x => obj k.1 k.2 = some x ∧ x.2 = t ∧ x.1.length = t.length) (channelsOf objs) (fun k hk => by
    obtain ⟨s, h1, h2⟩ := ho k hk
    exact ⟨(s, t), h1, rfl, h2⟩)
  have hc : channels obj (channelsOf objs) = .ok xs := (channels_ok _ _ _).2 (List.Forall₂.imp (fun _ _ h => h.1) hxs)
  have hx : ∀ x ∈ xs, x.2 = t ∧ x.1.length = t.length := by
    intro x hx
    obtain ⟨k, _, h⟩ := forall2_right hxs x hx
    exact h.2
  have htimes : xs.map Prod.snd = List.replicate xs.length t := by
    rw [List.eq_replicate_iff]
    refine ⟨by simp, fun y hy => ?_⟩
    obtain ⟨x, hm, rfl⟩ := List.mem_map.1 hy
    exact (hx x hm).1
  have hrep : ∀ (op : V → V → V), ∃ a, extremes op (List.replicate xs.length t) = .ok (List.replicate xs.length a) := by
    intro op
    obtain ⟨a, l, rfl⟩ := List.exists_cons_of_ne_nil ht
    refine ⟨l.foldl op a, ?_⟩
    generalize xs.length = n
    induction n with
    | zero => rfl
    | succ n ih => rw [List.replicate_succ, extremes, ih, List.replicate_succ]
  obtain ⟨a, ha⟩ := hrep min
  obtain ⟨b, hb⟩ := hrep max
  have hsev : ∀ {A : Type} [DecidableEq A] (n : Nat) (x : A), several (List.replicate n x) = false := by
    intro A _ n x
    apply several_of
    intro y hy z hz
    rw [(List.mem_replicate.1 hy).2, (List.mem_replicate.1 hz).2]
  unfold tdms
  simp only [channelKeys_eq objs hp, hc, htimes, ha, hb, List.map_replicate, hsev]
  have hlen : xs.length ≠ 0 := by
    rw [← hxs.length_eq]
    simpa using hne
  obtain ⟨n, hn⟩ := Nat.exists_eq_succ_of_ne_zero hlen
  rw [hn, List.replicate_succ]
  simp only [Bool.false_eq_true, if_false]
  rw [if_pos]
  · exact ⟨_, rfl⟩
  · rw [List.all_eq_true]
    intro x hm
    simpa using (hx x hm).2

/-- **C213.** If the channels are sampled at equal steps, each in its own time, then what is read has the times of every channel: channels with other times are refused. -/
theorem C213 [Field V] [LinearOrder V] [IsStrictOrderedRing V] (obj : Str → Str → Option (List V × List V)) (paths : List Str)
    (hu : ∀ g c s t, obj g c = some (s, t) → ∃ (n : Nat) (t0 dt : V), 0 < dt ∧ t = (List.range n).map fun i : Nat => t0 + (i : V) * dt)
    (tab : List (Str × List V)) (h : tdms obj paths = .ok tab) :
    ∃ T, tab.head? = some ("Time_[s]".toList, T) ∧ ∀ k ∈ channelKeys paths, ∃ s, obj k.1 k.2 = some (s, T) := by
  obtain ⟨xs, mins, maxs, hx, hmin, hmax, hl, h2, h3, t, ht, hlen, rfl⟩ := tdms_ok obj _ tab h
  refine ⟨t, rfl, fun k hk => ?_⟩
  obtain ⟨⟨s, t'⟩, hm, hk'⟩ := forall2_left hx k hk
  refine ⟨s, ?_⟩
  rw [hk']
  suffices t' = t by rw [this]
  obtain ⟨⟨s1, t1⟩, hm1, e1⟩ : ∃ x ∈ xs, x.2 = t := List.mem_map.1 (List.mem_of_head? ht)
  simp only at e1
  subst e1
  obtain ⟨k1, _, hk1⟩ := forall2_right hx _ hm1
  obtain ⟨n, t0, dt, hd, rfl⟩ := hu _ _ _ _ hk'
  obtain ⟨n1, u0, du, hd1, rfl⟩ := hu _ _ _ _ hk1
  have m0 := List.mem_map_of_mem (f := Prod.snd) hm
  have m1 := List.mem_map_of_mem (f := Prod.snd) hm1
  simp only at m0 m1
  have e := several_false _ hl _ (List.mem_map.2 ⟨_, m0, rfl⟩) _ (List.mem_map.2 ⟨_, m1, rfl⟩)
  simp only [List.length_map, List.length_range] at e
  subst e
  obtain ⟨a, ha, x, r, he, rfl⟩ := forall2_left (extremes_ok _ _ _ hmin) _ m0
  obtain ⟨b, hb, y, r', he', rfl⟩ := forall2_left (extremes_ok _ _ _ hmin) _ m1
  obtain ⟨a2, ha2, x2, r2, he2, rfl⟩ := forall2_left (extremes_ok _ _ _ hmax) _ m0
  obtain ⟨b2, hb2, y2, r2', he2', rfl⟩ := forall2_left (extremes_ok _ _ _ hmax) _ m1
  have q1 := several_false _ h2 _ ha _ hb
  have q2 := several_false _ h3 _ ha2 _ hb2
  rw [(track_ends n t0 dt hd x r he).1, (track_ends n u0 du hd1 y r' he').1] at q1
  rw [(track_ends n t0 dt hd x2 r2 he2).2, (track_ends n u0 du hd1 y2 r2' he2').2] at q2
  subst q1
  match n with
  | 0 => rfl
  | 1 => simp
  | n + 2 =>
    have hpos : ((n + 2 - 1 : Nat) : V) ≠ 0 := by
      have : (n + 2 - 1 : Nat) ≠ 0 := by omega
      exact_mod_cast this
    have : dt = du := mul_left_cancel₀ hpos (add_left_cancel q2)
    rw [this]

end

/-- two channels with the same times -/
def exTdms : Str → Str → Option (List Rat × List Rat) := fun _ c => if c = ['u'] then some ([5, 6], [0, 1]) else some ([7, 8], [0, 1])

example : (tdms exTdms ([Obj.root, .group ['g'], .channel ['g'] ['u'], .channel ['g'] ['v']].map Obj.path)).isOk = true := by decide +kernel

example : ∀ o ∈ [Obj.root, .group ['g'], .channel ['g'] ['u'], .channel ['g'] ['v']], o.Plain := by
  intro o ho
  simp only [List.mem_cons, List.not_mem_nil, or_false] at ho
  rcases ho with rfl | rfl | rfl | rfl
  · trivial
  · exact ⟨by decide, by decide⟩
  · exact ⟨by decide, by decide, by decide, by decide⟩
  · exact ⟨by decide, by decide, by decide, by decide⟩

example : ∀ g c s t, exTdms g c = some (s, t) → ∃ (n : Nat) (t0 dt : Rat), 0 < dt ∧ t = (List.range n).map fun i : Nat => t0 + (i : Rat) * dt := by
  intro g c s t h
  refine ⟨2, 0, 1, by decide, ?_⟩
  rw [exTdms] at h
  split at h <;> (obtain ⟨-, rfl⟩ := Prod.mk.inj (Option.some.inj h); decide +kernel)

section
variable {V T : Type}

/-- **C214.** The tables of a RAAW file have the time and the signals of their sampling time, in order, with their samples; the rest of the 600 seconds is NaN. -/
theorem C214 [DecidableEq V] (nan fastStep slowStep : V) (hne : fastStep ≠ slowStep) (fastTime slowTime : List V) (sigs : List (Signal V T)) (r : Raaw V T)
    (h : raaw nan fastStep slowStep fastTime slowTime sigs = .ok r) :
    List.Forall₂ (ColumnIs nan 30000) (("time".toList, fastTime) :: (sigs.filter fun s => s.step = fastStep).map fun s => (s.name, s.samples)) r.fast ∧
    List.Forall₂ (ColumnIs nan 600) (("time".toList, slowTime) :: (sigs.filter fun s => s.step = slowStep).map fun s => (s.name, s.samples)) r.slow := by
  unfold raaw at h
  split at h
  · cases h
  split at h
  · cases h
  next f hf =>
  split at h
  · cases h
  next s hs =>
  obtain rfl := Except.ok.inj h
  refine ⟨toFrame_ok _ _ _ _ hf, ?_⟩
  have := toFrame_ok _ _ _ _ hs
  rw [withStep, List.filter_filter] at this
  have e : (sigs.filter fun s => decide (s.step = slowStep) && decide (s.step ≠ fastStep)) = sigs.filter fun s => s.step = slowStep := by
    apply List.filter_congr
    intro s _
    by_cases hs : s.step = slowStep
    · simp [hs, Ne.symm hne]
    · simp [hs]
  rw [e] at this
  exact this

/-- **C214**, the other direction: signals that are not longer than 600 seconds give the tables. -/
theorem C214_total [DecidableEq V] (nan fastStep slowStep : V) (fastTime slowTime : List V) (hf : fastTime.length = 30000) (hs : slowTime.length = 600) (sigs : List (Signal V T))
    (hne : sigs ≠ []) (h : ∀ s ∈ sigs, (s.step = fastStep → s.samples.length ≤ 30000) ∧ (s.step = slowStep → s.samples.length ≤ 600)) :
    ∃ r, raaw nan fastStep slowStep fastTime slowTime sigs = .ok r := by
  have hl := List.getLast?_eq_some_getLast hne
  rw [raaw, hl]
  simp only
  rw [toFrame, if_pos]
  · simp only
    rw [toFrame, if_pos]
    · exact ⟨_, rfl⟩
    · rw [List.all_eq_true]
      intro x hx
      rcases List.mem_cons.1 hx with rfl | hx
      · simp [hs]
      · obtain ⟨s, hs', rfl⟩ := List.mem_map.1 hx
        rw [List.mem_filter, List.mem_filter] at hs'
        simpa using (h s hs'.1.1).2 (by simpa using hs'.2)
  · rw [List.all_eq_true]
    intro x hx
    rcases List.mem_cons.1 hx with rfl | hx
    · simp [hf]
    · obtain ⟨s, hs', rfl⟩ := List.mem_map.1 hx
      rw [List.mem_filter] at hs'
      simpa using (h s hs'.1).1 (by simpa using hs'.2)

/-- **C215 fails**: the index starts when the last signal starts, also for signals that start at another time. -/
theorem C215_fails (nan : Int) (fastTime slowTime : List Int) (hf : fastTime.length = 30000) (hs : slowTime.length = 600) : ∃ (a b : Signal Int Int) (r : Raaw Int Int),
    raaw nan 50 1 fastTime slowTime [a, b] = .ok r ∧ a.start ≠ r.start := by
  obtain ⟨r, hr⟩ := C214_total nan 50 1 fastTime slowTime hf hs [⟨['a'], 1, 7, [1, 2]⟩, (⟨['b'], 1, 8, [3, 4]⟩ : Signal Int Int)] (by decide) (by decide)
  obtain ⟨last, hl, hst⟩ := raaw_start _ _ _ _ _ _ _ hr
  refine ⟨_, _, r, hr, ?_⟩
  obtain rfl := Option.some.inj hl
  rw [hst]
  decide

/-- **C215, the part that holds**: signals with the same start. -/
theorem C215_partial [DecidableEq V] (nan fastStep slowStep : V) (fastTime slowTime : List V) (sigs : List (Signal V T)) (r : Raaw V T)
    (h : raaw nan fastStep slowStep fastTime slowTime sigs = .ok r) (hs : ∀ s ∈ sigs, ∀ s' ∈ sigs, s.start = s'.start) : ∀ s ∈ sigs, s.start = r.start := by
  obtain ⟨last, hl, hst⟩ := raaw_start _ _ _ _ _ _ _ h
  intro s hm
  rw [hst]
  exact hs s hm last (List.mem_of_getLast? hl)

end

/-- a signal of each kind and one that is left out -/
def exRaaw : List (Signal Int Int) := [⟨['a'], 50, 7, [1, 2, 3]⟩, ⟨['b'], 1, 7, [4, 5]⟩, ⟨['c'], 2, 7, [6, 7]⟩]

example : exRaaw ≠ [] ∧ ∀ s ∈ exRaaw, (s.step = 50 → s.samples.length ≤ 30000) ∧ (s.step = 1 → s.samples.length ≤ 600) := by decide

end Verif.Sheets
