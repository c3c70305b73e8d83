import Verif.Lemmas.Str
import Verif.Model.AsciiComp
/-!
# C47 comparison of text files, C65 detection of binary files
-/
namespace Verif.AsciiComp
open Verif.Py

/-- the content of a text: its lines, each a list of words -/
def content (t : Str) : List (List Str) := (splitlines t).map words

/-! ### Words of a text cut at a character -/

/-- the words of the pieces of `s` between the characters `c` -/
def W (c : Char) (s : Str) : List (List Str) := (splitOn c s).map words

/-- the last of `a` and the first of `b` become one piece -/
def glue : List (List α) → List (List α) → List (List α)
  | [], b => b
  | [x], [] => [x]
  | [x], y :: b => (x ++ y) :: b
  | x :: x' :: a, b => x :: glue (x' :: a) b

theorem splitOn_cons_ne (c x : Char) (s : Str) (h : x ≠ c) :
    ∃ p ps, splitOn c s = p :: ps ∧ splitOn c (x :: s) = (x :: p) :: ps := by
  cases hs : splitOn c s with
  | nil => exact absurd hs (splitOn_ne_nil c s)
  | cons p ps => exact ⟨p, ps, rfl, by rw [splitOn, if_neg h, hs]⟩

theorem W_ws_cons (c x : Char) (s : Str) (h : x ≠ c) (hx : isWs x = true) : W c (x :: s) = W c s := by
  obtain ⟨p, ps, h1, h2⟩ := splitOn_cons_ne c x s h
  rw [W, W, h1, h2, List.map_cons, List.map_cons, words_cons_ws _ _ hx]

theorem splitOn_mid (c x : Char) (a s : Str) (h : x ≠ c) (hx : isWs x = true) :
    W c (a ++ x :: s) = glue (W c a) (W c s) := by
  induction a with
  | nil =>
    rw [List.nil_append, W_ws_cons c x s h hx]
    obtain ⟨p, ps, h1, -⟩ := splitOn_cons_ne c x s h
    simp [W, h1, splitOn, words_nil, glue]
  | cons y a ih =>
    by_cases hy : y = c
    · subst hy
      have e1 : W y ((y :: a) ++ x :: s) = [] :: W y (a ++ x :: s) := by
        simp [W, splitOn, words_nil]
      have e2 : W y (y :: a) = [] :: W y a := by simp [W, splitOn, words_nil]
      rw [e1, e2, ih]
      cases hW : W y a with
      | nil => simp [W] at hW; exact absurd hW (splitOn_ne_nil y a)
      | cons p ps => rfl
    · -- the general statement on splitOn
      have key : ∀ a : Str, ∃ ps p q qs, splitOn c a = ps ++ [p] ∧ splitOn c s = q :: qs ∧
          splitOn c (a ++ x :: s) = ps ++ (p ++ x :: q) :: qs := by
        intro a
        induction a with
        | nil =>
          obtain ⟨q, qs, h1, h2⟩ := splitOn_cons_ne c x s h
          exact ⟨[], [], q, qs, rfl, h1, h2⟩
        | cons z a ih =>
          obtain ⟨ps, p, q, qs, h1, h2, h3⟩ := ih
          by_cases hz : z = c
          · refine ⟨[] :: ps, p, q, qs, ?_, h2, ?_⟩
            · rw [splitOn, if_pos hz, h1]; rfl
            · rw [List.cons_append, splitOn, if_pos hz, h3]; rfl
          · cases ps with
            | nil =>
              refine ⟨[], z :: p, q, qs, ?_, h2, ?_⟩
              · rw [splitOn, if_neg hz, h1]; rfl
              · rw [List.cons_append, splitOn, if_neg hz, h3]; rfl
            | cons r ps =>
              refine ⟨(z :: r) :: ps, p, q, qs, ?_, h2, ?_⟩
              · rw [splitOn, if_neg hz, h1]; rfl
              · rw [List.cons_append, splitOn, if_neg hz, h3]; rfl
      obtain ⟨ps, p, q, qs, h1, h2, h3⟩ := key (y :: a)
      rw [W, W, W, h1, h2, h3]
      simp only [List.map_append, List.map_cons, List.map_nil, words_append _ _ _ hx]
      generalize ps.map words = P
      induction P with
      | nil => rfl
      | cons r P ihP =>
        cases P with
        | nil => rfl
        | cons r' P => rw [List.cons_append, ihP]; rfl

/-- the same, computed from the words of the whole text -/
def F (c : Char) : List Str → List (List Str)
  | [] => [[]]
  | w :: ws => glue (W c w) (F c ws)

theorem glue_nil (a : List (List α)) (h : a ≠ []) : glue a [[]] = a := by
  induction a with
  | nil => exact absurd rfl h
  | cons x a ih =>
    cases a with
    | nil => simp [glue]
    | cons y a => rw [glue, ih (by simp)]

theorem W_ne_nil (c : Char) (s : Str) : W c s ≠ [] := by
  intro h
  simp only [W, List.map_eq_nil_iff] at h
  exact splitOn_ne_nil c s h

theorem W_eq_F (c : Char) (hc : isWs c = false) (s acc : Str) (ha : ∀ x ∈ acc, isWs x = false) :
    W c (acc ++ s) = F c (wordsAux acc s) := by
  induction s generalizing acc with
  | nil =>
    rw [List.append_nil, wordsAux]
    by_cases h : acc = []
    · rw [if_pos h, h]; rfl
    · rw [if_neg h]
      show _ = glue (W c acc) [[]]
      rw [glue_nil _ (W_ne_nil c acc)]
  | cons x s ih =>
    rw [wordsAux]
    by_cases hx : isWs x = true
    · have hxc : x ≠ c := fun e => by rw [e, hc] at hx; exact nomatch hx
      rw [if_pos hx]
      by_cases h : acc = []
      · rw [if_pos h, h, List.nil_append, W_ws_cons c x s hxc hx]
        exact ih [] (by simp)
      · rw [if_neg h, splitOn_mid c x acc s hxc hx]
        have := ih [] (by simp)
        rw [List.nil_append] at this
        rw [this]; rfl
    · rw [if_neg hx]
      have := ih (acc ++ [x]) (by
        intro y hy
        rcases List.mem_append.1 hy with hy | hy
        · exact ha y hy
        · rw [List.mem_singleton] at hy; subst hy; simpa using hx)
      rw [List.append_assoc] at this
      exact this

theorem W_words (c : Char) (hc : isWs c = false) (s t : Str) (h : words s = words t) : W c s = W c t := by
  have h1 := W_eq_F c hc s [] (by simp)
  have h2 := W_eq_F c hc t [] (by simp)
  rw [List.nil_append] at h1 h2
  rw [h1, h2]
  exact congrArg _ h

/-! ### Words of joined lines -/

/-- join of a word in progress with the words that follow immediately -/
def push (acc : Str) : List Str → List Str
  | [] => [acc]
  | w :: ws => (acc ++ w) :: ws

theorem wordsAux_push (acc s : Str) (ha : acc ≠ []) (hs : ∀ c, s.head? = some c → isWs c = false) :
    wordsAux acc s = push acc (words s) := by
  cases s with
  | nil => rw [words, wordsAux, wordsAux, if_neg ha, if_pos rfl]; rfl
  | cons x s =>
    have hx := hs x rfl
    have gen : ∀ (s b : Str), b ≠ [] → wordsAux (acc ++ b) s = push acc (wordsAux b s) := by
      intro s
      induction s with
      | nil => intro b hb; rw [wordsAux, wordsAux, if_neg hb, if_neg (by simp [hb])]; rfl
      | cons y s ih =>
        intro b hb
        have hab : acc ++ b ≠ [] := by simp [hb]
        rw [wordsAux, wordsAux, if_neg hb, if_neg hab]
        by_cases hy : isWs y = true
        · rw [if_pos hy, if_pos hy]; rfl
        · rw [if_neg hy, if_neg hy, List.append_assoc, ih _ (by simp)]
    rw [words, wordsAux, wordsAux, hx]
    exact gen s [x] (by simp)

/-- the words before and the words that follow immediately -/
def attach (ws : List Str) (f : Str → List Str) : List Str :=
  match ws with
  | [] => f []
  | [w] => f w
  | w :: w' :: ws => w :: attach (w' :: ws) f

theorem wordsAux_attach (s acc t : Str) (h : ∀ c, (acc ++ s).getLast? = some c → isWs c = false) :
    wordsAux acc (s ++ t) = attach (wordsAux acc s) (fun w => wordsAux w t) := by
  induction s generalizing acc with
  | nil =>
    rw [List.nil_append, wordsAux]
    by_cases ha : acc = []
    · rw [if_pos ha, ha]; rfl
    · rw [if_neg ha]; rfl
  | cons x s ih =>
    rw [List.cons_append, wordsAux, wordsAux]
    have hne : isWs x = true → s ≠ [] := by
      intro hx e
      have := h x (by rw [e]; simp)
      rw [hx] at this; exact nomatch this
    have hl : s ≠ [] → ∀ c, s.getLast? = some c → isWs c = false := by
      intro hs c hc
      refine h c ?_
      rw [List.getLast?_append, List.getLast?_cons, hc]
      rfl
    by_cases hx : isWs x = true
    · rw [if_pos hx, if_pos hx]
      have hs := hne hx
      have h' := ih [] (by rw [List.nil_append]; exact hl hs)
      by_cases ha : acc = []
      · rw [if_pos ha, if_pos ha]; exact h'
      · rw [if_neg ha, if_neg ha, h']
        cases hw : wordsAux [] s with
        | nil =>
          exfalso
          -- the last character of `s` is in a word
          have hnil : ∀ s : Str, words s = [] → ∀ c ∈ s, isWs c = true := by
            intro s
            induction s with
            | nil => intro _ c hc; exact nomatch hc
            | cons y s ih2 =>
              intro hw c hc
              by_cases hy : isWs y = true
              · rw [words_cons_ws _ _ hy] at hw
                rcases List.mem_cons.1 hc with rfl | hc
                · exact hy
                · exact ih2 hw c hc
              · exfalso
                have e : ∀ (s b : Str), b ≠ [] → wordsAux b s ≠ [] := by
                  intro s
                  induction s with
                  | nil => intro b hb; rw [wordsAux, if_neg hb]; simp
                  | cons z s ih3 =>
                    intro b hb
                    rw [wordsAux, if_neg hb]
                    split
                    · simp
                    · exact ih3 _ (by simp)
                rw [words, wordsAux, if_neg hy] at hw
                exact e s _ (by simp) hw
          have hlast : s.getLast? = some (s.getLast hs) := List.getLast?_eq_some_getLast hs
          have h1 := hl hs _ hlast
          rw [hnil s hw _ (List.getLast_mem hs)] at h1
          exact nomatch h1
        | cons w ws => rfl
    · rw [if_neg hx, if_neg hx]
      exact ih (acc ++ [x]) (by rw [List.append_assoc]; exact h)

theorem dropWhile_head? (p : Char → Bool) (s : Str) (c : Char) (h : (s.dropWhile p).head? = some c) : p c = false := by
  induction s with
  | nil => simp at h
  | cons x s ih =>
    rw [List.dropWhile_cons] at h
    by_cases hx : p x = true
    · rw [if_pos hx] at h; exact ih h
    · rw [if_neg hx] at h
      simp only [List.head?_cons, Option.some.injEq] at h
      subst h; simpa using hx

theorem strip_head? (s : Str) (c : Char) (h : (strip s).head? = some c) : isWs c = false := by
  obtain ⟨t, h1, -⟩ := rstripBy_append isWs (lstripBy isWs s)
  have : (lstripBy isWs s).head? = some c := by
    rw [h1]
    show (strip s ++ t).head? = some c
    rw [List.head?_append, h]; rfl
  exact dropWhile_head? isWs s c this

theorem strip_getLast? (s : Str) (c : Char) (h : (strip s).getLast? = some c) : isWs c = false := by
  rw [strip, stripBy, rstripBy, List.getLast?_reverse] at h
  exact dropWhile_head? _ _ _ h

theorem bar : isWs '|' = false := by decide

/-- the words of lines joined by bars, from the words of the lines -/
def H : List (List Str) → List Str
  | [] => []
  | [ws] => ws
  | ws :: ls => attach ws (fun w => push (w ++ ['|']) (H ls))

theorem join_head (ls : List Str) (c : Char) (h : (joinWith ['|'] (ls.map strip)).head? = some c) : isWs c = false := by
  cases ls with
  | nil => simp [joinWith] at h
  | cons l ls =>
    cases ls with
    | nil => exact strip_head? l c h
    | cons l' ls =>
      rw [List.map_cons, joinWith_cons _ _ _ (by simp), List.append_assoc, List.head?_append] at h
      cases hl : (strip l).head? with
      | none => rw [hl] at h; simp at h; subst h; exact bar
      | some d => rw [hl] at h; simp at h; subst h; exact strip_head? l _ hl

theorem words_H (ls : List Str) : words (joinWith ['|'] (ls.map strip)) = H (ls.map words) := by
  induction ls with
  | nil => rfl
  | cons l ls ih =>
    cases ls with
    | nil => exact words_strip l
    | cons l' ls =>
      rw [List.map_cons, joinWith_cons _ _ _ (by simp), List.append_assoc, words,
        wordsAux_attach _ _ _ (by rw [List.nil_append]; exact strip_getLast? l)]
      show attach (words (strip l)) _ = attach (words l) _
      rw [words_strip]
      congr 1
      funext w
      show wordsAux w ('|' :: joinWith ['|'] ((l' :: ls).map strip)) = push _ _
      rw [wordsAux, if_neg (by simp [bar]), wordsAux_push _ _ (by simp) (join_head _), ih]

theorem clean_words (l : Str) : words (clean l) = words l := by rw [clean, words_strip, words_replace_tab]

theorem norm_words (t : Str) : words (norm t) = H (content t) := by
  rw [norm, words_join _ (words_isWord _)]
  have h := words_H ((splitlines t).map (replaceChar '\t' [' ']))
  rw [List.map_map, List.map_map] at h
  have e : (splitlines t).map clean = (splitlines t).map (strip ∘ replaceChar '\t' [' ']) := rfl
  rw [e, h, content]
  congr 1
  exact List.map_congr_left (fun l _ => words_replace_tab l)

/-! ### C47 -/

/-- **C47**: the comparison is an equivalence on the files that exist -/
theorem C47_equivalence (fs : FS) (a b c : Str) (ha : fs a ≠ none) (hb : fs b ≠ none) (hc : fs c ≠ none) :
    (asciiComp fs a a false).2 = some true ∧
    (asciiComp fs a b false).2 = (asciiComp fs b a false).2 ∧
    ((asciiComp fs a b false).2 = some true → (asciiComp fs b c false).2 = some true →
      (asciiComp fs a c false).2 = some true) := by
  obtain ⟨t1, h1⟩ := Option.ne_none_iff_exists'.1 ha
  obtain ⟨t2, h2⟩ := Option.ne_none_iff_exists'.1 hb
  obtain ⟨t3, h3⟩ := Option.ne_none_iff_exists'.1 hc
  have val : ∀ x y t u, fs x = some t → fs y = some u →
      (asciiComp fs x y false).2 = some (decide (norm t = norm u)) := by
    intro x y t u hx hy
    simp only [asciiComp, hx, hy]
    by_cases h : norm t = norm u <;> simp [h]
  rw [val _ _ _ _ h1 h1, val _ _ _ _ h1 h2, val _ _ _ _ h2 h1, val _ _ _ _ h2 h3, val _ _ _ _ h1 h3]
  refine ⟨by simp, ?_, ?_⟩
  · by_cases h : norm t1 = norm t2
    · simp [h]
    · simp [h, Ne.symm h]
  · intro h h'
    simp only [Option.some.injEq, decide_eq_true_eq] at h h' ⊢
    exact h.trans h'

/-- **C47**: files with the same words in the same lines are equal, whatever the blanks and tabs -/
theorem C47_blanks (fs : FS) (a b t u : Str) (bDelete : Bool) (ha : fs a = some t) (hb : fs b = some u)
    (h : content t = content u) : (asciiComp fs a b bDelete).2 = some true := by
  have : norm t = norm u := by
    have e : words (norm t) = words (norm u) := by rw [norm_words, norm_words, h]
    have r : ∀ t, joinWith [' '] (words (norm t)) = norm t := fun t => by
      rw [norm, words_join _ (words_isWord _)]
    rw [← r t, ← r u, e]
  simp only [asciiComp, ha, hb, if_pos this]

example : content " a\tb \n\n c".toList = content "a  b\n \t\nc".toList ∧
    content " a\tb \n\n c".toList = [["a".toList, "b".toList], [], ["c".toList]] := by decide +kernel

/-- C47 fails: a bar is taken for the end of a line, and an empty file for a blank line -/
theorem C47_fails :
    norm "a|b".toList = norm "a\nb".toList ∧ content "a|b".toList ≠ content "a\nb".toList ∧
    norm "|".toList = norm "\n\n".toList ∧ content "|".toList ≠ content "\n\n".toList ∧
    norm [] = norm "\n".toList ∧ content [] ≠ content "\n".toList := by
  decide +kernel

theorem strip_mem (s : Str) (c : Char) (h : c ∈ strip s) : c ∈ s := by
  obtain ⟨t, h1, -⟩ := rstripBy_append isWs (lstripBy isWs s)
  have : c ∈ lstripBy isWs s := by rw [h1]; exact List.mem_append_left _ h
  exact (List.dropWhile_suffix _).subset this

theorem splitlines_mem (t acc : Str) (c : Char) (l : Str) (hl : l ∈ splitlinesAux acc t) (hc : c ∈ l) : c ∈ acc ∨ c ∈ t := by
  induction t generalizing acc with
  | nil =>
    rw [splitlinesAux] at hl
    split at hl
    · exact nomatch hl
    · rw [List.mem_singleton] at hl; subst hl; exact .inl hc
  | cons x t ih =>
    rw [splitlinesAux] at hl
    split at hl
    · rcases List.mem_cons.1 hl with rfl | hl
      · exact .inl hc
      · rcases ih [] hl with h | h
        · exact nomatch h
        · exact .inr (by simp [h])
    · rcases ih _ hl with h | h
      · rcases List.mem_append.1 h with h | h
        · exact .inl h
        · rw [List.mem_singleton] at h; exact .inr (by simp [h])
      · exact .inr (by simp [h])

theorem content_W (t : Str) (hbar : '|' ∉ t) (hne : splitlines t ≠ []) : W '|' (norm t) = content t := by
  rw [W_words '|' bar (norm t) (joinWith ['|'] ((splitlines t).map clean)) (by rw [norm, words_join _ (words_isWord _)]), W, splitOn_join _ _ (by simpa using hne),
    List.map_map]
  · exact List.map_congr_left (fun l _ => clean_words l)
  · intro l hl hc
    obtain ⟨l', hl', rfl⟩ := List.mem_map.1 hl
    have h1 := strip_mem _ _ hc
    rw [replaceChar, List.mem_flatMap] at h1
    obtain ⟨d, hd, h1⟩ := h1
    split at h1
    · simp at h1
    · rw [List.mem_singleton] at h1
      subst h1
      rcases splitlines_mem t [] _ l' hl' hd with h | h
      · exact nomatch h
      · exact hbar h

/-- **C47**: files that differ in their words or lines are different.
(Missing for the full property: texts with bars, and the empty file.) -/
theorem C47_partial (fs : FS) (a b t u : Str) (bDelete : Bool) (ha : fs a = some t) (hb : fs b = some u)
    (ht : '|' ∉ t) (hu : '|' ∉ u) (ht' : t ≠ []) (hu' : u ≠ []) (h : content t ≠ content u) :
    (asciiComp fs a b bDelete).2 = some false := by
  have hne : ∀ t : Str, t ≠ [] → splitlines t ≠ [] := by
    intro t ht
    have gen : ∀ (t acc : Str), (t ≠ [] ∨ acc ≠ []) → splitlinesAux acc t ≠ [] := by
      intro t
      induction t with
      | nil => intro acc h; rw [splitlinesAux, if_neg (by simpa using h)]; simp
      | cons x t ih =>
        intro acc _
        rw [splitlinesAux]
        split
        · simp
        · exact ih _ (.inr (by simp))
    exact gen t [] (.inl ht)
  have : norm t ≠ norm u := fun e => h (by
    rw [← content_W t ht (hne t ht'), ← content_W u hu (hne u hu'), e])
  simp only [asciiComp, ha, hb, if_neg this]

example : '|' ∉ "a b\nc".toList ∧ '|' ∉ "a\nb c".toList ∧ "a b\nc".toList ≠ [] ∧
    content "a b\nc".toList ≠ content "a\nb c".toList := by decide +kernel

/-- the characters that end a line for Python's `str.splitlines` -/
def separators : List Nat := [10, 11, 12, 13, 28, 29, 30, 0x85, 0x2028, 0x2029]

/-- **C47**: what the lines of the comparison are: a text is cut at each of the ten characters
above and nowhere else, and a final one ends the last line instead of starting another -/
theorem C47_lines (s t : Str) (c : Char) (hs : ∀ x ∈ s, x.toNat ∉ separators) :
    (c.toNat ∈ separators → content (s ++ c :: t) = words s :: content t) ∧
    (s ≠ [] → content s = [words s]) ∧ content [] = [] := by
  have hb : ∀ x : Char, isBreak x = true ↔ x.toNat ∈ separators := by
    intro x
    simp only [isBreak, separators, Bool.or_eq_true, Bool.and_eq_true, decide_eq_true_eq, beq_iff_eq,
      List.mem_cons, List.not_mem_nil, or_false]
    omega
  have hf : ∀ x ∈ s, isBreak x = false := by
    intro x hx
    have := mt (hb x).1 (hs x hx)
    simpa using this
  have gen : ∀ (s acc : Str), (∀ x ∈ s, isBreak x = false) → ∀ r, splitlinesAux acc (s ++ r) = splitlinesAux (acc ++ s) r := by
    intro s
    induction s with
    | nil => intro acc _ r; simp
    | cons x s ih =>
      intro acc h r
      rw [List.cons_append, splitlinesAux, h x (by simp)]
      simp only [Bool.false_eq_true, if_false]
      rw [ih _ (fun y hy => h y (by simp [hy]))]
      simp
  refine ⟨fun hc => ?_, fun hne => ?_, rfl⟩
  · rw [content, splitlines, gen s [] hf, splitlinesAux, (hb c).2 hc]
    rfl
  · have := gen s [] hf []
    rw [List.append_nil] at this
    rw [content, splitlines, this, splitlinesAux, List.nil_append, if_neg hne]
    rfl

example : (∀ x ∈ "a b".toList, x.toNat ∉ separators) ∧ (Char.ofNat 12).toNat ∈ separators ∧
    content ("a b".toList ++ Char.ofNat 12 :: "c".toList) = [["a".toList, "b".toList], ["c".toList]] := by decide +kernel

/-- **C47**: without `bDelete` no file changes; with it, exactly the second file is removed, and
only if the files are equal -/
theorem C47_delete (fs : FS) (a b : Str) (bDelete : Bool) :
    (∀ p, p ≠ b ∨ bDelete = false ∨ (asciiComp fs a b bDelete).2 ≠ some true → (asciiComp fs a b bDelete).1 p = fs p) ∧
    (bDelete = true → (asciiComp fs a b bDelete).2 = some true → (asciiComp fs a b bDelete).1 b = none) := by
  rw [asciiComp]
  cases h1 : fs a with
  | none => exact ⟨fun _ _ => rfl, fun _ h => nomatch h⟩
  | some t =>
    cases h2 : fs b with
    | none => exact ⟨fun _ _ => rfl, fun _ h => nomatch h⟩
    | some u =>
      simp only
      by_cases h : norm t = norm u
      · rw [if_pos h]
        cases bDelete
        · simp
        · refine ⟨fun p hp => ?_, fun _ _ => by simp⟩
          have hp : p ≠ b := by simpa using hp
          simp [hp]
      · rw [if_neg h]; simp

/-! ### C65 -/

/-- the characters of an ordinary line of text: tab, or printable -/
def printable (c : Char) : Prop := c = '\t' ∨ 32 ≤ c.toNat

/-- C65 fails: a tab in the first line makes a text file binary -/
theorem C65_fails (s t : Str) : isBinary (some ('x' :: '\t' :: s ++ '\n' :: t)) = true := rfl

/-- **C65**: a file whose first line is printable text without tabs is not binary; a file with
a character below 32, other than line ends and shift codes 14 and 31, in the first line is.
(Missing for the full property: tabs.) -/
theorem C65_partial (s t : Str) (hs : ∀ c ∈ s, printable c) (hnl : '\n' ∉ s) :
    isBinary (some (s ++ '\n' :: t)) = true ↔ '\t' ∈ s := by
  have hr : readline (s ++ '\n' :: t) = s ++ ['\n'] := by
    induction s with
    | nil => rfl
    | cons c s ih =>
      rw [List.cons_append, readline, if_neg (fun e => hnl (by simp [e])),
        ih (fun x hx => hs x (by simp [hx])) (fun h => hnl (by simp [h]))]
      rfl
  have hw : ∀ c ∈ s, (weird c = true ↔ c = '\t') := by
    intro c hc
    constructor
    · intro h
      rcases hs c hc with h' | h'
      · exact h'
      · simp [weird] at h; omega
    · rintro rfl; rfl
  show (readline (s ++ '\n' :: t)).any weird = true ↔ _
  rw [hr, List.any_append, Bool.or_eq_true, List.any_eq_true]
  constructor
  · rintro (⟨c, hc, h⟩ | h)
    · rw [← (hw c hc).1 h]; exact hc
    · exact nomatch h
  · intro h
    exact .inl ⟨'\t', h, rfl⟩

example : (∀ c ∈ "! Time Wind".toList, printable c) ∧ '\n' ∉ "! Time Wind".toList ∧ '\t' ∉ "! Time Wind".toList := by
  refine ⟨?_, by decide, by decide⟩
  intro c hc
  exact .inr ((by decide : ∀ c ∈ "! Time Wind".toList, 32 ≤ c.toNat) c hc)

/-- **C65**: a file that is not text, or has a control character (other than line ends) in its
first line, is binary -/
theorem C65_binary (s t : Str) (c : Char) (hc : c.toNat < 9 ∨ 15 ≤ c.toNat ∧ c.toNat ≤ 30) (hnl : '\n' ∉ s) :
    isBinary none = true ∧ isBinary (some (s ++ c :: t)) = true := by
  refine ⟨rfl, ?_⟩
  have hcn : c ≠ '\n' := by rintro rfl; revert hc; decide
  have hr : ∃ r, readline (s ++ c :: t) = s ++ c :: r := by
    induction s with
    | nil => exact ⟨readline t, by rw [List.nil_append, readline, if_neg hcn]; rfl⟩
    | cons d s ih =>
      obtain ⟨r, h⟩ := ih (fun h => hnl (by simp [h]))
      exact ⟨r, by rw [List.cons_append, readline, if_neg (fun e => hnl (by simp [e])), h]; rfl⟩
  obtain ⟨r, h⟩ := hr
  show (readline (s ++ c :: t)).any weird = true
  rw [h, List.any_append, List.any_cons]
  have : weird c = true := by simp [weird]; omega
  simp [this]

example : (Char.ofNat 0).toNat < 9 := by decide

/-- **C65**: the exact answer for any first line: binary are the lines with a character of code
0 to 9 or 15 to 30.  Against the property: 9 is the tab; 14 and 31 are missed (`C65_control_fails`). -/
theorem C65_exact (s t : Str) (hnl : '\n' ∉ s) :
    isBinary (some (s ++ '\n' :: t)) = true ↔ ∃ c ∈ s, c.toNat ≤ 9 ∨ 15 ≤ c.toNat ∧ c.toNat ≤ 30 := by
  have hr : readline (s ++ '\n' :: t) = s ++ ['\n'] := by
    induction s with
    | nil => rfl
    | cons c s ih =>
      rw [List.cons_append, readline, if_neg (fun e => hnl (by simp [e])), ih (fun h => hnl (by simp [h]))]
      rfl
  show (readline (s ++ '\n' :: t)).any weird = true ↔ _
  rw [hr, List.any_append, Bool.or_eq_true, List.any_eq_true]
  have hw : ∀ c : Char, weird c = true ↔ c.toNat ≤ 9 ∨ 15 ≤ c.toNat ∧ c.toNat ≤ 30 := by
    intro c; simp only [weird, Bool.or_eq_true, Bool.and_eq_true, decide_eq_true_eq]; omega
  constructor
  · rintro (⟨c, hc, h⟩ | h)
    · exact ⟨c, hc, (hw c).1 h⟩
    · exact nomatch h
  · rintro ⟨c, hc, h⟩
    exact .inl ⟨c, hc, (hw c).2 h⟩

/-- C65 fails: the control characters 14 (shift out) and 31 (unit separator) go unnoticed -/
theorem C65_control_fails :
    isBinary (some [Char.ofNat 14, 'x', '\n']) = false ∧ isBinary (some [Char.ofNat 31, 'x', '\n']) = false := by decide

end Verif.AsciiComp
