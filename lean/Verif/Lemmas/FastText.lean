import Verif.Spec.FastText
import Verif.Lemmas.FastRead
/-! Lemmas for C86: the text of tables. -/
namespace Verif.FastRead
open Verif.Py Verif.FastDict Verif.FastLine Verif.FastTable

/-! ### cutting at a comment -/

theorem find_append (c : Char) (t r : Str) (h : c ∉ t) : find [c] (t ++ c :: r) = some t.length := by
  induction t with
  | nil => simp [find, List.isPrefixOf]
  | cons x t ih =>
    simp at h
    rw [List.cons_append, find, if_neg (by simp [List.isPrefixOf, h.1]), ih h.2]; rfl

theorem cut_at (c : Char) (t r : Str) (h : c ∉ t) (hne : t ≠ []) : cleanAfterChar (t ++ c :: r) c = t := by
  unfold cleanAfterChar
  rw [find_append c t r h]
  have : 0 < t.length := List.length_pos_iff.2 hne
  simp [this]

theorem first_mem (x : Char) (r : Str) (h : x ∈ r) : ∃ a b, r = a ++ x :: b ∧ x ∉ a := by
  induction r with
  | nil => simp at h
  | cons y r ih =>
    by_cases hy : y = x
    · exact ⟨[], r, by simp [hy], by simp⟩
    · obtain ⟨a, b, e, h⟩ := ih (by simpa [Ne.symm hy] using h)
      exact ⟨y :: a, b, by simp [e], by simp [h, Ne.symm hy]⟩

/-- cutting at another character leaves the beginning and the comment character -/
theorem cut_other (x c : Char) (t r : Str) (hx : x ∉ t) (hne : x ≠ c) :
    ∃ r', cleanAfterChar (t ++ c :: r) x = t ++ c :: r' := by
  by_cases hr : x ∈ r
  · obtain ⟨a, b, rfl, ha⟩ := first_mem x r hr
    refine ⟨a, ?_⟩
    have e : t ++ c :: (a ++ x :: b) = (t ++ c :: a) ++ x :: b := by simp
    rw [e, cut_at x _ _ (by simp [hx, hne, ha]) (by simp)]
  · exact ⟨r, cleanAfterChar_none _ _ (by simp [hx, hne, hr])⟩

/-- cutting a followed text at all its comment characters -/
theorem cut_all (cs : List Char) (t l : Str) (hne : t ≠ []) (h : ∀ c ∈ cs, c ∉ t)
    (hl : l = t ∨ ∃ c r, c ∈ cs ∧ l = t ++ c :: r) :
    cs.foldl cleanAfterChar l = t := by
  induction cs generalizing l with
  | nil =>
    rcases hl with rfl | ⟨c, r, hc, _⟩
    · rfl
    · simp at hc
  | cons x cs ih =>
    rw [List.foldl_cons]
    rcases hl with rfl | ⟨c, r, hc, rfl⟩
    · rw [cleanAfterChar_none _ _ (h x (by simp))]
      exact ih _ (fun c hc => h c (by simp [hc])) (Or.inl rfl)
    · by_cases hx : x = c
      · subst hx
        rw [cut_at _ _ _ (h x (by simp)) hne]
        exact ih _ (fun c hc => h c (by simp [hc])) (Or.inl rfl)
      · obtain ⟨r', e⟩ := cut_other x c t r (h x (by simp)) hx
        rw [e]
        refine ih _ (fun c hc => h c (by simp [hc])) (Or.inr ⟨c, r', ?_, rfl⟩)
        rcases List.mem_cons.1 hc with rfl | hc
        · exact absurd rfl hx
        · exact hc

/-! ### normalised spaces -/

theorem wordsAux_head (acc s : Str) (h : acc ≠ []) :
    ∃ w ws, wordsAux acc s = (acc ++ w) :: ws := by
  induction s generalizing acc with
  | nil => exact ⟨[], [], by simp [wordsAux, h]⟩
  | cons x s ih =>
    unfold wordsAux
    split
    · exact ⟨[], wordsAux [] s, by simp [h]⟩
    · obtain ⟨w, ws, e⟩ := ih (acc ++ [x]) (by simp)
      exact ⟨x :: w, ws, by rw [e]; simp⟩

theorem wordsAux_split (acc t : Str) (c : Char) (r : Str) (hc : isWs c = false) (ha : ∀ x ∈ acc, isWs x = false) :
    ∃ t' r', joinWith [' '] (wordsAux acc (t ++ c :: r)) = t' ++ c :: r' ∧ words t' = wordsAux acc t ∧
      (∀ x ∈ t', x = ' ' ∨ x ∈ acc ∨ x ∈ t) ∧
      (t' = joinWith [' '] (wordsAux acc t) ∨
        wordsAux acc t ≠ [] ∧ t' = joinWith [' '] (wordsAux acc t) ++ [' ']) := by
  induction t generalizing acc with
  | nil =>
    have e0 : wordsAux acc ([] ++ c :: r) = wordsAux (acc ++ [c]) r := by simp [wordsAux, hc]
    rw [e0]
    obtain ⟨w, ws, e⟩ := wordsAux_head (acc ++ [c]) r (by simp)
    rw [e]
    refine ⟨acc, w ++ (if ws = [] then [] else ' ' :: joinWith [' '] ws), ?_, ?_,
      fun x hx => Or.inr (Or.inl hx), Or.inl ?_⟩
    · by_cases hw : ws = []
      · subst hw; simp [joinWith]
      · rw [joinWith_cons _ _ _ hw, if_neg hw]; simp
    · by_cases h : acc = []
      · subst h; rfl
      · rw [words_word ⟨h, ha⟩]; simp [wordsAux, h]
    · by_cases h : acc = []
      · subst h; rfl
      · simp [wordsAux, h, joinWith]
  | cons x t ih =>
    rw [List.cons_append, wordsAux, wordsAux]
    by_cases hx : isWs x = true
    · rw [if_pos hx, if_pos hx]
      obtain ⟨t', r', e1, e2, e3, e4⟩ := ih [] (by simp)
      by_cases h : acc = []
      · subst h
        rw [if_pos rfl, if_pos rfl]
        exact ⟨t', r', e1, e2, fun y hy => by rcases e3 y hy with h | h | h <;> simp_all, e4⟩
      · rw [if_neg h, if_neg h]
        have hn : wordsAux [] (t ++ c :: r) ≠ [] := by
          intro he; rw [he] at e1; simp [joinWith] at e1
        refine ⟨acc ++ ' ' :: t', r', ?_, ?_, ?_, ?_⟩
        · rw [joinWith_cons _ _ _ hn, e1]; simp
        · rw [words_word_cons ⟨h, ha⟩ _ _ isWs_space, e2]
        · intro y hy
          simp only [List.mem_append, List.mem_cons] at hy
          rcases hy with hy | hy | hy
          · exact Or.inr (Or.inl hy)
          · exact Or.inl hy
          · rcases e3 y hy with h | h | h
            · exact Or.inl h
            · simp at h
            · exact Or.inr (Or.inr (by simp [h]))
        · by_cases hz : wordsAux [] t = []
          · refine Or.inr ⟨by simp, ?_⟩
            rcases e4 with e4 | ⟨e4, _⟩
            · rw [e4, hz]; simp [joinWith]
            · exact absurd hz e4
          · rcases e4 with e4 | ⟨_, e4⟩
            · refine Or.inl ?_
              rw [joinWith_cons _ _ _ hz, ← e4]; simp
            · refine Or.inr ⟨by simp, ?_⟩
              rw [joinWith_cons _ _ _ hz, e4]; simp
    · rw [if_neg hx, if_neg hx]
      have hx' : isWs x = false := by simpa using hx
      obtain ⟨t', r', e1, e2, e3, e4⟩ := ih (acc ++ [x]) (by
        intro y hy
        rcases List.mem_append.1 hy with h | h
        · exact ha y h
        · simp at h; subst h; exact hx')
      refine ⟨t', r', e1, e2, fun y hy => ?_, e4⟩
      rcases e3 y hy with h | h | h
      · exact Or.inl h
      · rcases List.mem_append.1 h with h | h
        · exact Or.inr (Or.inl h)
        · exact Or.inr (Or.inr (by simp_all))
      · exact Or.inr (Or.inr (by simp [h]))

theorem wordsAux_mem (acc s w : Str) (h : w ∈ wordsAux acc s) : ∀ x ∈ w, x ∈ acc ∨ x ∈ s := by
  induction s generalizing acc with
  | nil =>
    unfold wordsAux at h
    split at h
    · simp at h
    · simp at h; subst h; exact fun x hx => Or.inl hx
  | cons y s ih =>
    unfold wordsAux at h
    split at h
    · split at h
      · intro x hx
        rcases ih [] h x hx with h | h
        · simp at h
        · exact Or.inr (by simp [h])
      · rcases List.mem_cons.1 h with rfl | h
        · exact fun x hx => Or.inl hx
        · intro x hx
          rcases ih [] h x hx with h | h
          · simp at h
          · exact Or.inr (by simp [h])
    · intro x hx
      rcases ih _ h x hx with h | h
      · rcases List.mem_append.1 h with h | h
        · exact Or.inl h
        · simp at h; exact Or.inr (by simp [h])
      · exact Or.inr (by simp [h])

theorem words_mem (l w : Str) (h : w ∈ words l) (x : Char) (hx : x ∈ w) : x ∈ l := by
  rcases wordsAux_mem [] l w h x hx with h | h
  · simp at h
  · exact h

/-- `cleanLine` keeps a followed text, up to its spaces -/
theorem clean_followed (cs : List Char) (hcs : ∀ c ∈ cs, isWs c = false) (t l : Str) (h : Followed cs t l) :
    ∃ t', words t' = words t ∧ (∀ x ∈ t', x = ' ' ∨ x ∈ t) ∧ Followed cs t' (cleanLine l) ∧
      (t' = joinWith [' '] (words t) ∨ t' = joinWith [' '] (words t) ++ [' ']) := by
  obtain ⟨h1, h2⟩ := h
  have hsp : ' ' ∉ cs := fun hc => by have := hcs _ hc; simp [isWs_space] at this
  rw [cleanLine_eq]
  rcases h2 with rfl | ⟨c, r, hc, rfl⟩
  · have hm : ∀ x ∈ joinWith [' '] (words l), x = ' ' ∨ x ∈ l := by
      intro x hx
      rcases mem_joinWith _ _ _ hx with hx | ⟨w, hw, hx⟩
      · simp at hx; exact Or.inl hx
      · exact Or.inr (words_mem l w hw x hx)
    refine ⟨_, words_join _ (words_isWord l), hm, ⟨?_, Or.inl rfl⟩, Or.inl rfl⟩
    intro c hc hm'
    rcases hm c hm' with rfl | h
    · exact hsp hc
    · exact h1 c hc h
  · obtain ⟨t', r', e1, e2, e3, e4⟩ := wordsAux_split [] t c r (hcs c hc) (by simp)
    have hm : ∀ x ∈ t', x = ' ' ∨ x ∈ t := fun x hx => by rcases e3 x hx with h | h | h <;> simp_all
    refine ⟨t', e2, hm, ⟨?_, Or.inr ⟨c, r', hc, e1⟩⟩, e4.imp_right And.right⟩
    intro d hd hm'
    rcases hm d hm' with rfl | h
    · exact hsp hd
    · exact h1 d hd h

/-! ### the line of names -/

theorem wordsAux_prefix (a acc s : Str) (ha : a ≠ []) :
    ∃ w ws, wordsAux (a ++ acc) s = (a ++ w) :: ws ∧ wordsAux acc s = if w = [] then ws else w :: ws := by
  induction s generalizing acc with
  | nil =>
    refine ⟨acc, [], by simp [wordsAux, ha], by simp [wordsAux]⟩
  | cons x s ih =>
    by_cases hx : isWs x = true
    · refine ⟨acc, wordsAux [] s, by simp [wordsAux, hx, ha], by simp [wordsAux, hx]⟩
    · obtain ⟨w, ws, e1, e2⟩ := ih (acc ++ [x])
      refine ⟨w, ws, ?_, ?_⟩
      · rw [wordsAux, if_neg hx, List.append_assoc, e1]
      · rw [wordsAux, if_neg hx, e2]

/-- texts with the same words after a `!` have the same words -/
theorem words_bang (s t : Str) (h : words ('!' :: s) = words ('!' :: t)) : words s = words t := by
  have e : ∀ u, words ('!' :: u) = wordsAux ['!'] u := fun u => by
    show wordsAux [] ('!' :: u) = _
    rw [wordsAux, if_neg (by decide)]; rfl
  rw [e, e] at h
  obtain ⟨w, ws, a1, a2⟩ := wordsAux_prefix ['!'] [] s (by simp)
  obtain ⟨v, vs, b1, b2⟩ := wordsAux_prefix ['!'] [] t (by simp)
  simp only [List.append_nil] at a1 b1
  rw [a1, b1] at h
  injection h with h1 h2
  have h1 : w = v := by simpa using h1
  subst h1; subst h2
  rw [words, words, a2, b2]

theorem words_blank (b s : Str) (h : ∀ c ∈ b, isWs c = true) : words (b ++ s) = words s := by
  induction b with
  | nil => rfl
  | cons c b ih =>
    rw [List.cons_append, words_cons_ws _ _ (h c (by simp)), ih (fun c hc => h c (by simp [hc]))]

theorem cut_head (x : Char) (u : Str) (hx : x ≠ '!') : ∃ u', cleanAfterChar ('!' :: u) x = '!' :: u' := by
  unfold cleanAfterChar
  split
  · split
    · next i _ hi =>
      obtain ⟨j, rfl⟩ : ∃ j, i = j + 1 := ⟨i - 1, by omega⟩
      exact ⟨u.take j, rfl⟩
    · exact ⟨u, rfl⟩
  · exact ⟨u, rfl⟩

theorem headerNames_text (names : List Str) (l : Str) (hne : names ≠ []) (h : HeadText names l) :
    headerNames l = names := by
  rcases h with ⟨t, ht, hf⟩ | ⟨b, t, r, rfl, hb, ht, hbang, hf⟩
  · obtain ⟨t', h1, h2, ⟨h3, h4⟩, _⟩ := clean_followed _ (by decide) t l hf
    have hn : t' ≠ [] := by
      rintro rfl
      rw [ht] at h1
      exact hne h1.symm
    have hc := cut_all _ _ _ hn h3 h4
    unfold headerNames
    simp only [List.foldl_cons, List.foldl_nil] at hc
    simp only [hc]
    rw [startsWith_one _ _ (h3 '!' (by simp)), if_neg (by simp), h1, ht]
  · have e : cleanLine (b ++ '!' :: r) = cleanLine ('!' :: r) := by
      rw [cleanLine_eq, cleanLine_eq, words_blank _ _ hb]
    have hf' : Followed ['[', '(', '#'] ('!' :: t) ('!' :: r) := by
      obtain ⟨f1, f2⟩ := hf
      refine ⟨?_, ?_⟩
      · intro c hc hm
        rcases List.mem_cons.1 hm with rfl | hm
        · simp at hc
        · exact f1 c hc hm
      · rcases f2 with rfl | ⟨c, r', hc, rfl⟩
        · exact Or.inl rfl
        · exact Or.inr ⟨c, r', hc, rfl⟩
    obtain ⟨t', h1, h2, ⟨h3, h4⟩, _⟩ := clean_followed _ (by decide) _ _ hf'
    obtain ⟨u, hu⟩ : ∃ u, cleanLine ('!' :: r) = '!' :: u := by
      rw [cleanLine_eq]
      have e : words ('!' :: r) = wordsAux ['!'] r := by
        show wordsAux [] ('!' :: r) = _
        rw [wordsAux, if_neg (by decide)]; rfl
      obtain ⟨w, ws, a1⟩ := wordsAux_head ['!'] r (by simp)
      rw [e, a1]
      by_cases hw : ws = []
      · subst hw; exact ⟨w, rfl⟩
      · rw [joinWith_cons _ _ _ hw]; exact ⟨_, rfl⟩
    obtain ⟨t'', rfl⟩ : ∃ t'', t' = '!' :: t'' := by
      cases t' with
      | nil =>
        exfalso
        have e : words ('!' :: t) = wordsAux ['!'] t := by
          show wordsAux [] ('!' :: t) = _
          rw [wordsAux, if_neg (by decide)]; rfl
        obtain ⟨w, ws, a1⟩ := wordsAux_head ['!'] t (by simp)
        rw [e, a1] at h1
        simp [words, wordsAux] at h1
      | cons y t'' =>
        rcases h4 with h4 | ⟨c, r', _, h4⟩ <;>
        · rw [hu] at h4
          injection h4 with h4
          exact ⟨t'', by rw [h4]⟩
    have hw := words_bang _ _ h1
    have hc := cut_all _ _ _ (by simp) h3 h4
    simp only [List.foldl_cons, List.foldl_nil] at hc
    unfold headerNames
    simp only [e]
    rw [hu] at hc ⊢
    obtain ⟨u1, e1⟩ := cut_head '[' u (by decide)
    rw [e1] at hc ⊢
    obtain ⟨u2, e2⟩ := cut_head '(' u1 (by decide)
    rw [e2] at hc ⊢
    rw [cleanAfterChar_head, hc]
    have : startsWith ('!' :: t'') ['!'] = true := by simp [startsWith, List.isPrefixOf]
    rw [if_pos this]
    simp only [List.drop_succ_cons, List.drop_zero]
    rw [words_strip, hw, ht]

/-! ### rows -/

theorem mixTokens_text (toks : List Str) (l : Str) (h : RowText toks l) :
    mixTokens l = toks ∧ cleanAfterChar (cleanAfterChar l '!') '#' <+: l := by
  obtain ⟨t, hn, ht, h1, h2⟩ := h
  have hc := cut_all _ _ _ hn h1 h2
  simp only [List.foldl_cons, List.foldl_nil] at hc
  refine ⟨by unfold mixTokens; rw [hc, ht], ?_⟩
  rw [hc]
  rcases h2 with rfl | ⟨c, r, _, rfl⟩
  · exact List.prefix_refl _
  · exact List.prefix_append _ _

theorem isWs_toLower (d : Char) : isWs d.toLower = isWs d := by
  by_cases h : 65 ≤ d.toNat ∧ d.toNat ≤ 90
  · have h1 : ∀ n < 91, 65 ≤ n → isWs (Char.ofNat n).toLower = isWs (Char.ofNat n) := by decide
    have := h1 d.toNat (by omega) h.1
    rwa [Char.ofNat_toNat] at this
  · unfold Char.toLower
    split
    · rename_i hh
      exact absurd ⟨hh.1, hh.2⟩ h
    · rfl

theorem toLower_mark (d : Char) (c : Char) (hc : c = '!' ∨ c = '#') : d.toLower = c ↔ d = c := by
  by_cases h : 65 ≤ d.toNat ∧ d.toNat ≤ 90
  · have h1 : ∀ n < 91, 65 ≤ n → (Char.ofNat n).toLower ≠ '!' ∧ (Char.ofNat n).toLower ≠ '#' ∧
        Char.ofNat n ≠ '!' ∧ Char.ofNat n ≠ '#' := by decide
    have := h1 d.toNat (by omega) h.1
    rw [Char.ofNat_toNat] at this
    rcases hc with rfl | rfl
    · exact ⟨fun e => absurd e this.1, fun e => absurd e this.2.2.1⟩
    · exact ⟨fun e => absurd e this.2.1, fun e => absurd e this.2.2.2⟩
  · unfold Char.toLower
    split
    · rename_i hh
      exact absurd ⟨hh.1, hh.2⟩ h
    · rfl

theorem wordsAux_lower (acc s : Str) : wordsAux (lower acc) (lower s) = (wordsAux acc s).map lower := by
  induction s generalizing acc with
  | nil => by_cases h : acc = [] <;> simp [wordsAux, lower, h]
  | cons x s ih =>
    have e : lower (x :: s) = x.toLower :: lower s := rfl
    rw [e, wordsAux, wordsAux, isWs_toLower]
    by_cases hx : isWs x = true
    · rw [if_pos hx, if_pos hx]
      by_cases h : acc = []
      · subst h
        exact ih []
      · rw [if_neg h, if_neg (by simpa [lower] using h), List.map_cons]
        congr 1
        exact ih []
    · rw [if_neg hx, if_neg hx, ← ih]
      congr 1
      simp [lower]

theorem words_lower (s : Str) : words (lower s) = (words s).map lower := wordsAux_lower [] s

theorem rowText_lower (toks : List Str) (l : Str) (h : RowText toks l) : RowText (toks.map lower) (lower l) := by
  obtain ⟨t, hn, ht, h1, h2⟩ := h
  refine ⟨lower t, by simpa [lower] using hn, by rw [words_lower, ht], ?_, ?_⟩
  · intro c hc hm
    obtain ⟨d, hd, e⟩ := List.mem_map.1 hm
    have : d = c := (toLower_mark d c (by simpa using hc)).1 e
    exact h1 c hc (this ▸ hd)
  · rcases h2 with rfl | ⟨c, r, hc, rfl⟩
    · exact Or.inl rfl
    · refine Or.inr ⟨c, lower r, hc, ?_⟩
      have : c.toLower = c := (toLower_mark c c (by simpa using hc)).2 rfl
      simp [lower, this]

theorem numTokens_text (toks : List Str) (l : Str) (h : RowText toks l) : numTokens l = toks.map lower :=
  (mixTokens_text _ _ (rowText_lower toks l h)).1

theorem replaceFuel_infix (a b : Str) (n : Nat) (s : Str) (h : ¬ a <:+: s) : replaceFuel a b n s = s := by
  induction n generalizing s with
  | zero => rfl
  | succ n ih =>
    cases s with
    | nil => rfl
    | cons x s =>
      rw [replaceFuel, if_neg, ih s (fun hi => h (hi.trans (List.suffix_cons x s).isInfix))]
      intro hs
      exact h (List.IsPrefix.isInfix (List.isPrefixOf_iff_prefix.1 hs))

theorem conv_stands (N : Num) (t : Str) (x : N.F) (h : Stands N t x) : conv N (lower t) = some x := by
  have e1 : replaceStr "print".toList ['1'] (replaceStr "noprint".toList ['0']
    (replaceStr "false".toList ['0'] (replaceStr "true".toList ['1'] "true".toList))) = ['1'] := by decide
  have e2 : replaceStr "print".toList ['1'] (replaceStr "noprint".toList ['0']
    (replaceStr "false".toList ['0'] (replaceStr "true".toList ['1'] "print".toList))) = ['1'] := by decide
  have e3 : replaceStr "print".toList ['1'] (replaceStr "noprint".toList ['0']
    (replaceStr "false".toList ['0'] (replaceStr "true".toList ['1'] "false".toList))) = ['0'] := by decide
  have e4 : replaceStr "print".toList ['1'] (replaceStr "noprint".toList ['0']
    (replaceStr "false".toList ['0'] (replaceStr "true".toList ['1'] "noprint".toList))) = ['0'] := by decide
  unfold conv
  rcases h with ⟨h | h, hx⟩ | ⟨h | h, hx⟩ | ⟨h, hx⟩
  · rw [h, e1, hx]
  · rw [h, e2, hx]
  · rw [h, e3, hx]
  · rw [h, e4, hx]
  · have h1 := h "true".toList (by simp)
    have h2 := h "false".toList (by simp)
    have h3 := h "print".toList (by simp)
    have h4 : ¬ "noprint".toList <:+: lower t := by
      intro hi
      exact h3 (List.IsInfix.trans (by decide) hi)
    generalize "true".toList = A at h1 ⊢
    generalize "false".toList = B at h2 ⊢
    generalize "print".toList = C at h3 ⊢
    generalize "noprint".toList = D at h4 ⊢
    unfold replaceStr
    rw [replaceFuel_infix A _ _ _ h1, replaceFuel_infix B _ _ _ h2, replaceFuel_infix D _ _ _ h4,
      replaceFuel_infix C _ _ _ h3, hx]

/-! ### the line of units -/

theorem unitWord_words (us : List Str) (h : ∀ u ∈ us, UnitWord u) (o c : Char) (ho : isWs o = false) (hc : isWs c = false) :
    ∀ w ∈ us.map (fun u => o :: u ++ [c]), IsWord w := by
  intro w hw
  obtain ⟨u, hu, rfl⟩ := List.mem_map.1 hw
  refine ⟨by simp, ?_⟩
  intro x hx
  simp only [List.cons_append, List.mem_cons, List.mem_append, List.not_mem_nil, or_false] at hx
  rcases hx with rfl | hx | rfl
  · exact ho
  · exact ((h u hu).2 x hx).1
  · exact hc

theorem strip_unit (u : Str) (h : UnitWord u) : strip u = u := strip_word ⟨h.1, fun c hc => (h.2 c hc).1⟩

/-- splitting units at their closing character -/
theorem split_pairs (o c : Char) (hoc : o ≠ c) (ho : o ≠ ' ') (hc : c ≠ ' ') (pre : Str) (us : List Str) (suf : Str)
    (hp : ∀ x ∈ pre, x = ' ') (hs : ∀ x ∈ suf, x = ' ') (hu : ∀ u ∈ us, o ∉ u ∧ c ∉ u) (hne : us ≠ []) :
    (splitOn c ((pre ++ (joinWith [' '] (us.map (fun u => o :: u ++ [c])) ++ suf)).filter (· != o))).dropLast
      = (pre ++ us.headD []) :: us.tail.map (' ' :: ·) := by
  induction us generalizing pre with
  | nil => exact absurd rfl hne
  | cons u us ih =>
    have hpo : o ∉ pre := fun h => ho (hp _ h)
    have hpc : c ∉ pre := fun h => hc (hp _ h)
    obtain ⟨h1, h2⟩ := hu u (by simp)
    have hso : o ∉ suf := fun h => ho (hs _ h)
    have hsc : c ∉ suf := fun h => hc (hs _ h)
    have hpu : c ∉ pre ++ u := by simp [hpc, h2]
    by_cases hn : us = []
    · subst hn
      have e : (pre ++ (joinWith [' '] ([u].map (fun u => o :: u ++ [c])) ++ suf)).filter (· != o) = (pre ++ u) ++ c :: suf := by
        simp only [List.map_cons, List.map_nil, joinWith, List.filter_append, filter_none _ _ hpo, filter_none _ _ hso]
        simp [filter_none _ _ h1, Ne.symm hoc]
      rw [e, splitOn_append _ _ _ hpu, splitOn_noSep _ _ hsc]; simp
    · have e : (pre ++ (joinWith [' '] ((u :: us).map (fun u => o :: u ++ [c])) ++ suf)).filter (· != o)
          = (pre ++ u) ++ c :: (([' '] ++ (joinWith [' '] (us.map (fun u => o :: u ++ [c])) ++ suf)).filter (· != o)) := by
        rw [List.map_cons, joinWith_cons _ _ _ (by simpa using hn)]
        simp only [List.filter_append, filter_none _ _ hpo]
        simp [filter_none _ _ h1, Ne.symm hoc, Ne.symm ho]
      have ih := ih [' '] (by simp) (fun u h => hu u (by simp [h])) hn
      rw [e, splitOn_append _ _ _ hpu, List.dropLast_cons_of_ne_nil (splitOn_ne_nil _ _), ih]
      cases us with
      | nil => exact absurd rfl hn
      | cons v us => simp

theorem pairs_wrap (us : List Str) (h : ∀ u ∈ us, UnitWord u) (hne : us ≠ []) :
    (([] ++ us.headD []) :: us.tail.map (' ' :: ·)).map wrapUnit = us.map inParens := by
  cases us with
  | nil => exact absurd rfl hne
  | cons u us =>
    simp only [List.headD_cons, List.tail_cons, List.map_cons, List.nil_append, List.map_map]
    have e1 : wrapUnit u = inParens u := by unfold wrapUnit inParens; rw [strip_unit u (h u (by simp))]
    rw [e1]
    congr 1
    apply List.map_congr_left
    intro v hv
    simp only [Function.comp]
    unfold wrapUnit inParens
    rw [strip_space, strip_unit v (h v (by simp [hv]))]

theorem count_pairs (us : List Str) (h : ∀ u ∈ us, UnitWord u) (o c d : Char) (hd : d ∈ ['(', ')', '[', ']']) (hoc : o ≠ c) :
    countChar d (joinWith [' '] (us.map (fun u => o :: u ++ [c]))) = if d = o ∨ d = c then us.length else 0 := by
  have hd' : d ≠ ' ' := by rintro rfl; simp at hd
  have hu : ∀ u ∈ us, countChar d (o :: u ++ [c]) = if d = o ∨ d = c then 1 else 0 := by
    intro u hu
    have h0 : countChar d u = 0 := countChar_none _ _ (fun hm => by
      have := ((h u hu).2 d hm).2
      simp at this hd
      tauto)
    have e : o :: u ++ [c] = [o] ++ u ++ [c] := rfl
    rw [e, countChar_append, countChar_append, h0]
    by_cases h1 : d = o
    · subst h1
      have : ¬ (c = d) := Ne.symm hoc
      simp [countChar, this]
    · by_cases h2 : d = c
      · subst h2
        simp [countChar, Ne.symm h1]
      · simp [countChar, h1, h2, Ne.symm h1, Ne.symm h2]
  clear h hd
  induction us with
  | nil => simp [joinWith, countChar]
  | cons u us ih =>
    have ih := ih (fun u h => hu u (by simp [h]))
    by_cases hn : us = []
    · subst hn; simpa [joinWith] using hu u (by simp)
    · rw [List.map_cons, joinWith_cons _ _ _ (by simpa using hn), countChar_append, countChar_append, ih, hu u (by simp),
        countChar_none d [' '] (by simpa using hd')]
      split <;> simp; omega

theorem count_bare (us : List Str) (h : ∀ u ∈ us, UnitWord u) (d : Char) (hd : d ∈ ['(', ')', '[', ']']) :
    countChar d (joinWith [' '] us) = 0 := by
  apply countChar_none
  intro hm
  rcases mem_joinWith _ _ _ hm with hm | ⟨w, hw, hm⟩
  · simp at hm; subst hm; simp at hd
  · have := ((h w hw).2 d hm).2
    simp at this hd
    tauto

/-- the units of a line, whatever their notation -/
theorem detectUnits_text (us : List Str) (h : ∀ u ∈ us, UnitWord u) (hne : us ≠ []) (ws : List Str)
    (hw : ws = us.map inParens ∨ ws = us.map inBrackets ∨ ws = us) (suf : Str) (hs : ∀ x ∈ suf, x = ' ') :
    (detectUnits (joinWith [' '] ws ++ suf) us.length).map wrapUnit = us.map inParens := by
  have hl : 0 < us.length := List.length_pos_iff.2 hne
  have hno : ∀ u ∈ us, ∀ d ∈ ['(', ')', '[', ']'], d ∉ u := by
    intro u hu d hd hm
    have := ((h u hu).2 d hm).2
    simp at this hd
    tauto
  have hcs : ∀ d ∈ ['(', ')', '[', ']'], countChar d suf = 0 := by
    intro d hd
    apply countChar_none
    intro hm
    have := hs d hm
    subst this
    simp at hd
  unfold detectUnits
  simp only [countChar_append, hcs '(' (by simp), hcs ')' (by simp), hcs '[' (by simp), hcs ']' (by simp), Nat.add_zero]
  rcases hw with rfl | rfl | rfl
  · have e : us.map inParens = us.map (fun u => '(' :: u ++ [')']) := rfl
    rw [e, count_pairs us h '(' ')' '(' (by simp) (by decide), count_pairs us h '(' ')' ')' (by simp) (by decide),
      if_pos (by simp)]
    have := split_pairs '(' ')' (by decide) (by decide) (by decide) [] us suf (by simp) hs
      (fun u hu => ⟨hno u hu _ (by simp), hno u hu _ (by simp)⟩) hne
    rw [List.nil_append] at this
    rw [this, pairs_wrap us h hne]; rfl
  · have e : us.map inBrackets = us.map (fun u => '[' :: u ++ [']']) := rfl
    rw [e, count_pairs us h '[' ']' '(' (by simp) (by decide), count_pairs us h '[' ']' ')' (by simp) (by decide),
      if_neg (by simp; omega), count_pairs us h '[' ']' '[' (by simp) (by decide),
      count_pairs us h '[' ']' ']' (by simp) (by decide), if_pos (by simp)]
    have := split_pairs '[' ']' (by decide) (by decide) (by decide) [] us suf (by simp) hs
      (fun u hu => ⟨hno u hu _ (by simp), hno u hu _ (by simp)⟩) hne
    rw [List.nil_append] at this
    rw [this, pairs_wrap us h hne]
  · rw [count_bare ws h '(' (by simp), count_bare ws h ')' (by simp), if_neg (by simp; omega),
      count_bare ws h '[' (by simp), count_bare ws h ']' (by simp), if_neg (by simp; omega)]
    rw [words_append_allWs _ _ (fun c hc => by rw [hs c hc]; exact isWs_space),
      words_join _ (fun u hu => ⟨(h u hu).1, fun c hc => ((h u hu).2 c hc).1⟩)]
    apply List.map_congr_left
    intro v hv
    unfold wrapUnit inParens
    rw [strip_unit v (h v hv)]

theorem headerUnits_text (us : List Str) (l : Str) (hne : us ≠ []) (h : UnitsText us l) :
    headerUnits l us.length = us.map inParens := by
  obtain ⟨hu, t, hw, hf⟩ := h
  obtain ⟨t', h1, _, ⟨h3, h4⟩, h5⟩ := clean_followed _ (by decide) t l hf
  have hn : t' ≠ [] := by
    rintro rfl
    have : words t = [] := h1.symm
    rw [this] at hw
    rcases hw with hw | hw | hw
    · exact hne (List.map_eq_nil_iff.1 hw.symm)
    · exact hne (List.map_eq_nil_iff.1 hw.symm)
    · exact hne hw.symm
  have hc := cut_all _ _ _ hn h3 h4
  simp only [List.foldl_cons, List.foldl_nil] at hc
  unfold headerUnits
  simp only [hc]
  rw [startsWith_one _ _ (h3 '!' (by simp)), if_neg (by simp)]
  rcases h5 with h5 | h5
  · have := detectUnits_text us hu hne _ hw [] (by simp)
    rw [List.append_nil] at this
    rw [h5, this]
  · rw [h5, detectUnits_text us hu hne _ hw [' '] (by simp)]

theorem rewrap_inParens (u : Str) (h : UnitWord u) : rewrapUnit (inParens u) = inParens u := by
  unfold rewrapUnit inParens
  rw [unit_inner u (fun hm => (h.2 _ hm).2 (by simp)) (fun hm => (h.2 _ hm).2 (by simp))]

end Verif.FastRead
