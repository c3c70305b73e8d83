import Verif.Model.Detect
/-! Helper lemmas for the detection model. -/
namespace Verif.Detect
open Verif.Py

/-- the words matched in full by an extension pattern: every `*` stands for a
(possibly empty) run of dots, other characters for themselves. -/
inductive PatLang : Str → Str → Prop
  | nil : PatLang [] []
  | lit {c ef s} : c ≠ '*' → PatLang ef s → PatLang (c :: ef) (c :: s)
  | star {ef s} (n : Nat) : PatLang ef s → PatLang ('*' :: ef) (List.replicate n '.' ++ s)

theorem PatLang.star_inv {ef p : Str} (h : PatLang ('*' :: ef) p) :
    ∃ n s, p = List.replicate n '.' ++ s ∧ PatLang ef s := by
  generalize hw : '*' :: ef = w at h
  cases h with
  | nil => cases hw
  | lit hne _ => simp at hw; exact absurd hw.1.symm hne
  | star n hp => simp at hw; subst hw; exact ⟨n, _, rfl, hp⟩

theorem PatLang.lit_inv {c : Char} {ef p : Str} (hc : c ≠ '*') (h : PatLang (c :: ef) p) :
    ∃ s, p = c :: s ∧ PatLang ef s := by
  generalize hw : c :: ef = w at h
  cases h with
  | nil => cases hw
  | lit hne hp => simp at hw; obtain ⟨rfl, rfl⟩ := hw; exact ⟨_, rfl, hp⟩
  | star n hp => simp at hw; exact absurd hw.1 hc

theorem reMatch_patOf (ef s : Str) :
    reMatch (patOf ef) s = true ↔ ∃ p q, s = p ++ q ∧ PatLang ef p := by
  induction ef generalizing s with
  | nil =>
    simp only [patOf, List.map_nil, reMatch, true_iff]
    exact ⟨[], s, rfl, .nil⟩
  | cons c ef ih =>
    by_cases hc : c = '*'
    · subst hc
      have hpat : patOf ('*' :: ef) = .dots :: patOf ef := by simp [patOf]
      rw [hpat]
      induction s with
      | nil =>
        rw [reMatch, dotsThen, ih]
        constructor
        · rintro ⟨p, q, h, hp⟩
          exact ⟨p, q, h, by simpa using PatLang.star 0 hp⟩
        · rintro ⟨p, q, h, hp⟩
          obtain ⟨n, s', rfl, hp'⟩ := hp.star_inv
          have h2 := List.append_eq_nil_iff.mp h.symm
          have h3 := List.append_eq_nil_iff.mp h2.1
          exact ⟨[], [], rfl, h3.2 ▸ hp'⟩
      | cons x s ihs =>
        rw [reMatch, dotsThen, Bool.or_eq_true, ih, Bool.and_eq_true, ← reMatch]
        constructor
        · rintro (⟨p, q, h, hp⟩ | ⟨hx, hr⟩)
          · exact ⟨p, q, h, by simpa using PatLang.star 0 hp⟩
          · have hx : x = '.' := by simpa using hx
            subst hx
            obtain ⟨p, q, h, hp⟩ := ihs.mp hr
            obtain ⟨n, s', rfl, hp'⟩ := hp.star_inv
            refine ⟨List.replicate (n + 1) '.' ++ s', q, ?_, PatLang.star (n + 1) hp'⟩
            simp [List.replicate_succ, h]
        · rintro ⟨p, q, h, hp⟩
          obtain ⟨n, s', rfl, hp'⟩ := hp.star_inv
          cases n with
          | zero => exact Or.inl ⟨s', q, by simpa using h, hp'⟩
          | succ n =>
            simp only [List.replicate_succ, List.cons_append, List.cons.injEq] at h
            exact Or.inr ⟨by simp [h.1], ihs.mpr ⟨List.replicate n '.' ++ s', q, h.2, PatLang.star n hp'⟩⟩
    · have hpat : patOf (c :: ef) = .lit c :: patOf ef := by simp [patOf, hc]
      rw [hpat]
      cases s with
      | nil =>
        simp only [reMatch, Bool.false_eq_true, false_iff]
        rintro ⟨p, q, h, hp⟩
        obtain ⟨s', rfl, _⟩ := hp.lit_inv hc
        simp at h
      | cons x s =>
        simp only [reMatch]
        rw [Bool.and_eq_true, ih]
        constructor
        · rintro ⟨hx, p, q, h, hp⟩
          have hx : x = c := by simpa using hx
          subst hx
          exact ⟨x :: p, q, by simp [h], .lit hc hp⟩
        · rintro ⟨p, q, h, hp⟩
          obtain ⟨s', rfl, hp'⟩ := hp.lit_inv hc
          simp only [List.cons_append, List.cons.injEq] at h
          exact ⟨by simp [h.1], _, q, h.2, hp'⟩

theorem extMatch_iff (exts : List Str) (ext : Str) :
    extMatch exts ext = true ↔
      ext ∈ exts ∨ ∃ ef ∈ exts, '*' ∈ ef ∧ ∃ p q, ext = p ++ q ∧ PatLang ef p := by
  unfold extMatch
  split
  · rename_i h
    simp only [true_iff]
    exact Or.inl (by simpa using h)
  · rename_i h
    have h : ext ∉ exts := by simpa using h
    simp only [List.any_map, List.any_eq_true, List.mem_filter, Function.comp, reMatch_patOf,
      List.contains_iff_mem, h, false_or]
    constructor
    · rintro ⟨ef, ⟨h1, h2⟩, h3⟩; exact ⟨ef, h1, h2, h3⟩
    · rintro ⟨ef, h1, h2, h3⟩; exact ⟨ef, ⟨h1, h2⟩, h3⟩

/-! ### the loop -/

theorem detectLoop_ok (ext name : Str) (fs : List (Format ρ ε)) (f : Format ρ ε) (F : ρ)
    (h : (detectLoop ext name fs).1 = .ok (f, F)) :
    ∃ pre post, fs = pre ++ f :: post ∧ extMatch f.extensions ext = true ∧
      f.construct name = .accepts F ∧
      (∀ g ∈ pre, extMatch g.extensions ext = true → g.construct name = .wrongFormat) ∧
      (detectLoop ext name fs).2 = pre.filter (fun g => extMatch g.extensions ext) ++ [f] := by
  induction fs with
  | nil => simp [detectLoop] at h
  | cons g fs ih =>
    unfold detectLoop at h ⊢
    by_cases hm : extMatch g.extensions ext = true
    · simp only [hm, if_true] at h ⊢
      unfold isRightFormat at h ⊢
      cases hc : g.construct name with
      | accepts G =>
        simp only [hc] at h ⊢
        simp only [Except.ok.injEq, Prod.mk.injEq] at h
        obtain ⟨rfl, rfl⟩ := h
        exact ⟨[], fs, rfl, hm, hc, by simp, by simp⟩
      | wrongFormat =>
        simp only [hc] at h ⊢
        obtain ⟨pre, post, h1, h2, h3, h4, h5⟩ := ih h
        refine ⟨g :: pre, post, by simp [h1], h2, h3, ?_, by simp [hm, h5]⟩
        intro g' hg'
        rcases List.mem_cons.mp hg' with rfl | hg'
        · exact fun _ => hc
        · exact h4 g' hg'
      | raises e => simp [hc] at h
    · simp only [hm] at h ⊢
      obtain ⟨pre, post, h1, h2, h3, h4, h5⟩ := ih h
      refine ⟨g :: pre, post, by simp [h1], h2, h3, ?_, by simp [hm, h5]⟩
      intro g' hg'
      rcases List.mem_cons.mp hg' with rfl | hg'
      · exact fun h => absurd h hm
      · exact h4 g' hg'

theorem detectLoop_skip (ext name : Str) (pre rest : List (Format ρ ε))
    (h : ∀ g ∈ pre, extMatch g.extensions ext = true → g.construct name = .wrongFormat) :
    detectLoop ext name (pre ++ rest) =
      ((detectLoop ext name rest).1,
        pre.filter (fun g => extMatch g.extensions ext) ++ (detectLoop ext name rest).2) := by
  induction pre with
  | nil => simp
  | cons g pre ih =>
    have ih := ih (fun g' hg' => h g' (List.mem_cons_of_mem _ hg'))
    rw [List.cons_append, detectLoop]
    by_cases hm : extMatch g.extensions ext = true
    · have hc := h g (List.mem_cons_self ..) hm
      simp [hm, isRightFormat, hc, ih]
    · simp [hm, ih]

theorem detectLoop_cons_accept (ext name : Str) (f : Format ρ ε) (post) (F : ρ)
    (hm : extMatch f.extensions ext = true) (hc : f.construct name = .accepts F) :
    detectLoop ext name (f :: post) = (.ok (f, F), [f]) := by
  simp [detectLoop, hm, isRightFormat, hc]

theorem detectLoop_cons_raise (ext name : Str) (f : Format ρ ε) (post) (e : ε)
    (hm : extMatch f.extensions ext = true) (hc : f.construct name = .raises e) :
    detectLoop ext name (f :: post) = (.error (.propagated e), [f]) := by
  simp [detectLoop, hm, isRightFormat, hc]

/-- every list of formats splits at the first extension-matching reader which
does not answer `WrongFormatError`. -/
theorem split_first (ext name : Str) (fs : List (Format ρ ε)) :
    (∀ g ∈ fs, extMatch g.extensions ext = true → g.construct name = .wrongFormat) ∨
    ∃ pre f post, fs = pre ++ f :: post ∧ extMatch f.extensions ext = true ∧
      f.construct name ≠ .wrongFormat ∧
      ∀ g ∈ pre, extMatch g.extensions ext = true → g.construct name = .wrongFormat := by
  induction fs with
  | nil => simp
  | cons g fs ih =>
    by_cases hg : extMatch g.extensions ext = true → g.construct name = .wrongFormat
    · rcases ih with ih | ⟨pre, f, post, h1, h2, h3, h4⟩
      · left; intro g' hg'
        rcases List.mem_cons.mp hg' with rfl | hg'
        · exact hg
        · exact ih g' hg'
      · right
        refine ⟨g :: pre, f, post, by simp [h1], h2, h3, ?_⟩
        intro g' hg'
        rcases List.mem_cons.mp hg' with rfl | hg'
        · exact hg
        · exact h4 g' hg'
    · right
      have hg := Classical.not_imp.mp hg
      exact ⟨[], g, fs, rfl, hg.1, hg.2, by simp⟩

/-! ### `splitext` -/

theorem takeWhile_append_stop {p : α → Bool} (l : List α) (x : α) (r : List α)
    (h : ∀ a ∈ l, p a = true) (hx : p x = false) : (l ++ x :: r).takeWhile p = l := by
  induction l with
  | nil => simp [hx]
  | cons a l ih => simp [h a (by simp), ih (fun b hb => h b (by simp [hb]))]

theorem dropWhile_append_stop {p : α → Bool} (l : List α) (x : α) (r : List α)
    (h : ∀ a ∈ l, p a = true) (hx : p x = false) : (l ++ x :: r).dropWhile p = x :: r := by
  induction l with
  | nil => simp [hx]
  | cons a l ih => simp [h a (by simp), ih (fun b hb => h b (by simp [hb]))]

theorem takeWhile_all {p : α → Bool} (l : List α) (h : ∀ a ∈ l, p a = true) :
    l.takeWhile p = l := by
  induction l with
  | nil => rfl
  | cons a l ih => simp [h a (by simp), ih (fun b hb => h b (by simp [hb]))]

theorem afterSlash_append (dir base : Str) (hb : '/' ∉ base) :
    afterSlash (dir ++ '/' :: base) = base := by
  unfold afterSlash
  have : (dir ++ '/' :: base).reverse = base.reverse ++ '/' :: dir.reverse := by simp
  rw [this, takeWhile_append_stop]
  · simp
  · intro a ha
    have : a ∈ base := by simpa using ha
    simp only [ne_eq, decide_not, Bool.not_eq_eq_eq_not, Bool.not_true, decide_eq_false_iff_not]
    rintro rfl; exact hb this
  · simp

theorem afterSlash_noslash (base : Str) (hb : '/' ∉ base) : afterSlash base = base := by
  unfold afterSlash
  rw [takeWhile_all]
  · simp
  · intro a ha
    have : a ∈ base := by simpa using ha
    simp only [ne_eq, decide_not, Bool.not_eq_eq_eq_not, Bool.not_true, decide_eq_false_iff_not]
    rintro rfl; exact hb this

theorem splitextExt_base (path base stem t : Str) (hp : afterSlash path = base)
    (hbase : base = stem ++ '.' :: t) (ht : '.' ∉ t) (hs : ∃ c ∈ stem, c ≠ '.') :
    splitextExt path = '.' :: t := by
  unfold splitextExt
  simp only [hp, hbase]
  have hrev : (stem ++ '.' :: t).reverse = t.reverse ++ '.' :: stem.reverse := by simp
  have ha : ∀ a ∈ t.reverse, decide (a ≠ '.') = true := by
    intro a ha
    have : a ∈ t := by simpa using ha
    simp only [ne_eq, decide_not, Bool.not_eq_eq_eq_not, Bool.not_true, decide_eq_false_iff_not]
    rintro rfl; exact ht this
  rw [hrev, takeWhile_append_stop _ _ _ ha (by simp), dropWhile_append_stop _ _ _ ha (by simp)]
  obtain ⟨c, hc, hne⟩ := hs
  simp only [ne_eq, decide_not, List.any_reverse, List.any_eq_true, Bool.not_eq_eq_eq_not,
    Bool.not_true, decide_eq_false_iff_not, List.reverse_reverse, ite_eq_left_iff]
  intro h
  exact absurd ⟨c, hc, hne⟩ h

end Verif.Detect
