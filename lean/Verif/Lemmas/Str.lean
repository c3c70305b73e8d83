import Verif.Py.Str
/-! Lemmas about the string primitives of `Verif.Py.Str`. -/
namespace Verif.Py

/-- a word: nonempty, without whitespace. -/
def IsWord (w : Str) : Prop := w ≠ [] ∧ ∀ c ∈ w, isWs c = false

theorem isWs_space : isWs ' ' = true := by decide

theorem IsWord.ne_nil {w : Str} (h : IsWord w) : w ≠ [] := h.1

theorem IsWord.space {w : Str} (h : IsWord w) : ' ' ∉ w := fun hc => by
  have := h.2 _ hc
  simp [isWs_space] at this

theorem wordsAux_append (acc s : Str) (c : Char) (t : Str) (hc : isWs c = true) :
    wordsAux acc (s ++ c :: t) = wordsAux acc s ++ words t := by
  induction s generalizing acc with
  | nil =>
    by_cases h : acc = [] <;> simp [wordsAux, hc, h, words]
  | cons x s ih =>
    simp only [List.cons_append, wordsAux]
    split
    · split <;> simp [ih]
    · exact ih _

theorem words_append (s : Str) (c : Char) (t : Str) (hc : isWs c = true) :
    words (s ++ c :: t) = words s ++ words t := wordsAux_append [] s c t hc

theorem wordsAux_word (acc w : Str) (hw : ∀ c ∈ w, isWs c = false) (hne : acc ++ w ≠ []) :
    wordsAux acc w = [acc ++ w] := by
  induction w generalizing acc with
  | nil => simp at hne; simp [wordsAux, hne]
  | cons x w ih =>
    have hx := hw x (by simp)
    simp only [wordsAux, hx]
    rw [if_neg (by simp), ih (acc ++ [x]) (fun c hc => hw c (by simp [hc])) (by simp)]
    simp

theorem words_word {w : Str} (hw : IsWord w) : words w = [w] := by
  have := wordsAux_word [] w hw.2 (by simpa using hw.1)
  simpa [words] using this

theorem words_nil : words [] = [] := rfl

theorem words_cons_ws (c : Char) (s : Str) (hc : isWs c = true) : words (c :: s) = words s := by
  have := words_append [] c s hc
  simpa [words_nil] using this

theorem words_append_ws (s : Str) (c : Char) (hc : isWs c = true) : words (s ++ [c]) = words s := by
  have := words_append s c [] hc
  simpa [words_nil] using this

theorem words_word_cons {w : Str} (hw : IsWord w) (c : Char) (s : Str) (hc : isWs c = true) :
    words (w ++ c :: s) = w :: words s := by
  rw [words_append _ _ _ hc, words_word hw]; rfl

theorem words_dropWhile (s : Str) : words (s.dropWhile isWs) = words s := by
  induction s with
  | nil => rfl
  | cons c s ih =>
    by_cases h : isWs c = true
    · rw [List.dropWhile_cons_of_pos h, ih, words_cons_ws _ _ h]
    · rw [List.dropWhile_cons_of_neg h]

theorem words_append_allWs (s t : Str) (ht : ∀ c ∈ t, isWs c = true) : words (s ++ t) = words s := by
  induction t generalizing s with
  | nil => simp
  | cons c t ih =>
    have hc := ht c (by simp)
    rw [words_append _ _ _ hc]
    have := ih [] (fun c hc => ht c (by simp [hc]))
    simp at this
    simp [this, words_nil]

theorem rstripBy_append (p : Char → Bool) (s : Str) :
    ∃ t, s = rstripBy p s ++ t ∧ ∀ c ∈ t, p c = true := by
  refine ⟨(s.reverse.takeWhile p).reverse, ?_, ?_⟩
  · unfold rstripBy
    rw [← List.reverse_append, List.takeWhile_append_dropWhile, List.reverse_reverse]
  · intro c hc
    rw [List.mem_reverse] at hc
    exact (List.all_eq_true.1 List.all_takeWhile) c hc

theorem words_rstrip (s : Str) : words (rstripBy isWs s) = words s := by
  obtain ⟨t, h1, h2⟩ := rstripBy_append isWs s
  conv => rhs; rw [h1]
  rw [words_append_allWs _ _ h2]

theorem words_strip (s : Str) : words (strip s) = words s := by
  simp only [strip, stripBy, words_rstrip, lstripBy, words_dropWhile]

theorem wordsAux_isWord (acc s : Str) (ha : ∀ c ∈ acc, isWs c = false) :
    ∀ w ∈ wordsAux acc s, IsWord w := by
  induction s generalizing acc with
  | nil =>
    intro w hw
    simp only [wordsAux] at hw
    split at hw
    · simp at hw
    · simp at hw; subst hw; exact ⟨by assumption, ha⟩
  | cons x s ih =>
    intro w hw
    simp only [wordsAux] at hw
    split at hw
    · split at hw
      · exact ih [] (by simp) w hw
      · rcases List.mem_cons.1 hw with rfl | hw
        · exact ⟨by assumption, ha⟩
        · exact ih [] (by simp) w hw
    · refine ih (acc ++ [x]) ?_ w hw
      intro c hc
      rcases List.mem_append.1 hc with hc | hc
      · exact ha c hc
      · simp at hc; subst hc; rename_i h; simpa using h

theorem words_isWord (s : Str) : ∀ w ∈ words s, IsWord w := wordsAux_isWord [] s (by simp)

theorem joinWith_cons (sep p : Str) (ps : List Str) (h : ps ≠ []) :
    joinWith sep (p :: ps) = p ++ sep ++ joinWith sep ps := by
  cases ps with
  | nil => exact absurd rfl h
  | cons q qs => rfl

theorem words_join (ws : List Str) (h : ∀ w ∈ ws, IsWord w) : words (joinWith [' '] ws) = ws := by
  induction ws with
  | nil => rfl
  | cons w ws ih =>
    have hw := h w (by simp)
    by_cases hn : ws = []
    · subst hn; simpa [joinWith] using words_word hw
    · rw [joinWith_cons _ _ _ hn, List.append_assoc, List.singleton_append, words_word_cons hw _ _ isWs_space,
        ih (fun w hw => h w (by simp [hw]))]

theorem splitOn_noSep (c : Char) (s : Str) (h : c ∉ s) : splitOn c s = [s] := by
  induction s with
  | nil => rfl
  | cons x s ih =>
    simp at h
    have hx : ¬ x = c := fun e => h.1 e.symm
    simp [splitOn, hx, ih h.2]

theorem splitOn_append (c : Char) (s t : Str) (h : c ∉ s) :
    splitOn c (s ++ c :: t) = s :: splitOn c t := by
  induction s with
  | nil => simp [splitOn]
  | cons x s ih =>
    simp at h
    have hx : ¬ x = c := fun e => h.1 e.symm
    simp only [List.cons_append, splitOn, hx, if_false, ih h.2]

theorem splitOn_ne_nil (c : Char) (s : Str) : splitOn c s ≠ [] := by
  cases s with
  | nil => simp [splitOn]
  | cons x s =>
    simp only [splitOn]; split
    · simp
    · split <;> simp

theorem splitOn_join (c : Char) (ws : List Str) (hne : ws ≠ []) (h : ∀ w ∈ ws, c ∉ w) :
    splitOn c (joinWith [c] ws) = ws := by
  induction ws with
  | nil => exact absurd rfl hne
  | cons w ws ih =>
    have hw := h w (by simp)
    by_cases hn : ws = []
    · subst hn; simpa [joinWith] using splitOn_noSep c w hw
    · rw [joinWith_cons _ _ _ hn, List.append_assoc, List.singleton_append, splitOn_append c w _ hw,
        ih hn (fun w hw => h w (by simp [hw]))]

theorem join_splitOn (c : Char) (s : Str) : joinWith [c] (splitOn c s) = s := by
  induction s with
  | nil => rfl
  | cons x s ih =>
    simp only [splitOn]; split
    · next h => rw [joinWith_cons _ _ _ (splitOn_ne_nil c s), ih]; simp [h]
    · split
      · next h => exact absurd h (splitOn_ne_nil c s)
      · next p ps h =>
        rw [h] at ih
        cases ps with
        | nil => simp [joinWith] at ih ⊢; exact ih
        | cons q qs => simp [joinWith] at ih ⊢; exact ih

/-- strip leaves a string whose ends are not whitespace. -/
theorem stripBy_eq_self (p : Char → Bool) (s : Str) (h1 : ∀ c, s.head? = some c → p c = false)
    (h2 : ∀ c, s.getLast? = some c → p c = false) : stripBy p s = s := by
  cases s with
  | nil => rfl
  | cons x s =>
    have hx := h1 x rfl
    unfold stripBy lstripBy
    rw [List.dropWhile_cons_of_neg (by simp [hx])]
    unfold rstripBy
    cases hr : (x :: s).reverse with
    | nil => simp at hr
    | cons y r =>
      have : (x :: s).getLast? = some y := by
        rw [← List.head?_reverse, hr]; rfl
      rw [List.dropWhile_cons_of_neg (by simp [h2 y this]), ← hr, List.reverse_reverse]

theorem joinWith_head? (sep w : Str) (ws : List Str) (h : w ≠ []) :
    (joinWith sep (w :: ws)).head? = w.head? := by
  cases ws with
  | nil => rfl
  | cons a as =>
    cases w with
    | nil => exact absurd rfl h
    | cons x w => simp [joinWith]

theorem joinWith_getLast? (sep : Str) (ws : List Str) (h : ∀ w ∈ ws, w ≠ []) :
    (joinWith sep ws).getLast? = ws.getLast?.bind List.getLast? := by
  induction ws with
  | nil => rfl
  | cons w ws ih =>
    by_cases hn : ws = []
    · subst hn; rfl
    · rw [joinWith_cons _ _ _ hn, List.getLast?_append, ih (fun w hw => h w (by simp [hw]))]
      rw [List.getLast?_cons]
      obtain ⟨l, hl⟩ : ∃ l, ws.getLast? = some l := by
        rw [List.getLast?_eq_some_getLast hn]; exact ⟨_, rfl⟩
      have hl2 := h l (by have := List.mem_of_getLast? hl; simp [this])
      rw [hl]
      simp [List.getLast?_eq_some_getLast hl2]

theorem strip_join (ws : List Str) (h : ∀ w ∈ ws, IsWord w) :
    strip (joinWith [' '] ws) = joinWith [' '] ws := by
  apply stripBy_eq_self
  · intro c hc
    cases ws with
    | nil => simp [joinWith] at hc
    | cons w ws =>
      have hw := h w (by simp)
      rw [joinWith_head? _ _ _ hw.1] at hc
      exact hw.2 c (List.mem_of_head? hc)
  · intro c hc
    rw [joinWith_getLast? _ _ (fun w hw => (h w hw).1)] at hc
    cases hl : ws.getLast? with
    | none => simp [hl] at hc
    | some w =>
      simp [hl] at hc
      exact (h w (List.mem_of_getLast? hl)).2 c (List.mem_of_getLast? hc)

theorem strip_word {w : Str} (h : IsWord w) : strip w = w := by
  have := strip_join [w] (by simpa using h)
  simpa [joinWith] using this

theorem words_replace_tab (s : Str) : words (replaceChar '\t' [' '] s) = words s := by
  have htab : isWs '\t' = true := by decide
  have gen : ∀ acc, wordsAux acc (replaceChar '\t' [' '] s) = wordsAux acc s := by
    induction s with
    | nil => intro acc; rfl
    | cons x s ih =>
      intro acc
      have e : replaceChar '\t' [' '] (x :: s)
          = (if x = '\t' then [' '] else [x]) ++ replaceChar '\t' [' '] s := rfl
      rw [e]
      by_cases h : x = '\t'
      · subst h; simp only [if_true, List.singleton_append, wordsAux, isWs_space, htab, ih]
      · simp only [h, if_false, List.singleton_append, wordsAux, ih]
  exact gen []

theorem mem_joinWith (sep : Str) (ws : List Str) (c : Char) (h : c ∈ joinWith sep ws) :
    c ∈ sep ∨ ∃ w ∈ ws, c ∈ w := by
  induction ws with
  | nil => simp [joinWith] at h
  | cons w ws ih =>
    by_cases hn : ws = []
    · subst hn; exact Or.inr ⟨w, by simp, by simpa [joinWith] using h⟩
    · rw [joinWith_cons _ _ _ hn] at h
      simp only [List.mem_append] at h
      rcases h with (h | h) | h
      · exact Or.inr ⟨w, by simp, h⟩
      · exact Or.inl h
      · rcases ih h with h | ⟨v, hv, hc⟩
        · exact Or.inl h
        · exact Or.inr ⟨v, by simp [hv], hc⟩

theorem joinWith_append (sep : Str) (a b : List Str) (ha : a ≠ []) (hb : b ≠ []) :
    joinWith sep (a ++ b) = joinWith sep a ++ sep ++ joinWith sep b := by
  induction a with
  | nil => exact absurd rfl ha
  | cons w a ih =>
    by_cases hn : a = []
    · subst hn; simp [joinWith, joinWith_cons _ _ _ hb]
    · rw [List.cons_append, joinWith_cons _ _ _ (by simp [hn]), ih hn, joinWith_cons _ _ _ hn]
      simp [List.append_assoc]

end Verif.Py
