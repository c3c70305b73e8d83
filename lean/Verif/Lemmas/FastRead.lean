import Verif.Spec.FastRead
import Mathlib.Data.List.Forall2
/-! Lemmas for C82, first part: texts of tables. -/
namespace Verif.FastRead
open Verif.Py Verif.FastDict Verif.FastLine Verif.FastTable

/-! ### words of a joined line -/

theorem words_joinWs (c : Char) (hc : isWs c = true) (ts : List Str) :
    words (joinWith [c] ts) = ts.flatMap words := by
  induction ts with
  | nil => rfl
  | cons t ts ih =>
    by_cases h : ts = []
    · subst h; simp [joinWith]
    · rw [joinWith_cons _ _ _ h, List.append_assoc, List.singleton_append, words_append _ _ _ hc, ih]; rfl

theorem words_pad15 (s : Str) : words (pad15 s) = words s := by
  unfold pad15
  apply words_append_allWs
  intro c hc
  rw [List.eq_of_mem_replicate hc]; exact isWs_space

theorem words_header (ts : List Str) : words (headerText ts) = ts.flatMap words := by
  unfold headerText
  rw [words_joinWs _ isWs_space]
  simp [List.flatMap_map, words_pad15]

theorem flatMap_words_self (ts : List Str) (h : ∀ t ∈ ts, IsWord t) : ts.flatMap words = ts := by
  induction ts with
  | nil => rfl
  | cons t ts ih =>
    rw [List.flatMap_cons, words_word (h t (by simp)), ih (fun t ht => h t (by simp [ht]))]; rfl

theorem clean_header (names : List Str) (h : ∀ t ∈ names, IsWord t) :
    cleanLine (headerText names) = joinWith [' '] names := by
  rw [cleanLine_eq, words_header, flatMap_words_self _ h]

theorem cleanAfterChar_none (l : Str) (c : Char) (h : c ∉ l) : cleanAfterChar l c = l := by
  unfold cleanAfterChar
  have : find [c] l = none := by
    induction l with
    | nil => simp [find]
    | cons x l ih =>
      simp at h
      rw [find, if_neg, ih h.2]; rfl
      simp [List.isPrefixOf, h.1]
  rw [this]

theorem cleanAfterChar_head (l : Str) (c : Char) : cleanAfterChar (c :: l) c = c :: l := by
  unfold cleanAfterChar
  simp [find, List.isPrefixOf]

theorem notMem_join (c : Char) (sep : Str) (ws : List Str) (h1 : c ∉ sep) (h2 : ∀ w ∈ ws, c ∉ w) :
    c ∉ joinWith sep ws := by
  intro h
  rcases mem_joinWith _ _ _ h with h | ⟨w, hw, hc⟩
  · exact h1 h
  · exact h2 w hw hc

theorem startsWith_one (s : Str) (c : Char) (h : c ∉ s) : startsWith s [c] = false := by
  cases s with
  | nil => rfl
  | cons x s => simp at h; simp [startsWith, List.isPrefixOf, h.1]

/-- the names of a header line -/
theorem headerNames_header (names : List Str) (h : NamesOK names) :
    headerNames (headerText names) = names := by
  have e : ∀ c : Char, c ≠ ' ' → (∀ n ∈ names, c ∉ n) → c ∉ joinWith [' '] names := by
    intro c hc hn
    exact notMem_join c _ _ (by simpa using hc) hn
  have h1 := e '[' (by decide) (fun n hn => (h.chars n hn).1)
  have h2 := e '(' (by decide) (fun n hn => (h.chars n hn).2.1)
  have h3 := e '!' (by decide) (fun n hn => (h.chars n hn).2.2.1)
  have h4 := e '#' (by decide) (fun n hn => (h.chars n hn).2.2.2)
  unfold headerNames
  simp only [clean_header _ h.word, cleanAfterChar_none _ _ h1, cleanAfterChar_none _ _ h2,
    cleanAfterChar_none _ _ h3, cleanAfterChar_none _ _ h4, startsWith_one _ _ h3]
  rw [if_neg (by simp), words_join _ h.word]

/-- the cleaned header line of a commented table -/
theorem clean_bang (ws : List Str) (t : Str) (ht : words t = ws) (hw : ws ≠ []) :
    cleanLine ("! ".toList ++ t) = '!' :: ' ' :: joinWith [' '] ws := by
  rw [cleanLine_eq]
  have : words ("! ".toList ++ t) = ['!'] :: ws := by
    have := words_word_cons (w := ['!']) ⟨by simp, by decide⟩ ' ' t isWs_space
    simpa [ht] using this
  rw [this, joinWith_cons _ _ _ hw]; rfl

theorem strip_space (s : Str) : strip (' ' :: s) = strip s := by
  unfold strip stripBy lstripBy
  rw [List.dropWhile_cons_of_pos isWs_space]

theorem names_ne {names : List Str} (h : NamesOK names) : names ≠ [] := by
  intro e; have := h.two; rw [e] at this; simp at this

/-- the names of a commented header line -/
theorem headerNames_bang (names : List Str) (h : NamesOK names) :
    headerNames ("! ".toList ++ headerText names) = names := by
  have e : ∀ c : Char, c ≠ ' ' → c ≠ '!' → (∀ n ∈ names, c ∉ n) → c ∉ '!' :: ' ' :: joinWith [' '] names := by
    intro c hc hb hn
    have := notMem_join c [' '] names (by simpa using hc) hn
    simp [hb, hc, this]
  have h1 := e '[' (by decide) (by decide) (fun n hn => (h.chars n hn).1)
  have h2 := e '(' (by decide) (by decide) (fun n hn => (h.chars n hn).2.1)
  have h4 := e '#' (by decide) (by decide) (fun n hn => (h.chars n hn).2.2.2)
  have hw : words (headerText names) = names := by rw [words_header, flatMap_words_self _ h.word]
  unfold headerNames
  simp only [clean_bang names _ hw (names_ne h), cleanAfterChar_none _ _ h1, cleanAfterChar_none _ _ h2,
    cleanAfterChar_head, cleanAfterChar_none _ _ h4]
  rw [if_pos (by simp [startsWith, List.isPrefixOf])]
  simp only [List.drop_succ_cons, List.drop_zero]
  rw [strip_space, words_strip, words_join _ h.word]

/-! ### units -/

/-- the inside of a unit -/
theorem UnitOK.words {u : Str} (h : UnitOK u) : u = joinWith [' '] (Py.words u) ∧ Py.words u ≠ [] := by
  obtain ⟨v, rfl, hv, _⟩ := h
  generalize hws : Py.words v = ws at hv
  have hw : ∀ w ∈ ws, IsWord w := hws ▸ words_isWord v
  cases ws with
  | nil =>
    simp [joinWith] at hv; subst hv
    exact ⟨by decide, by decide⟩
  | cons w ws =>
    -- words of "(w … x)" are "(w", …, "x)"
    have hlast : ∀ (w : Str) (ws : List Str), (∀ x ∈ w :: ws, IsWord x) →
        ∃ zs, zs ≠ [] ∧ (∀ z ∈ zs, IsWord z) ∧ joinWith [' '] (w :: ws) ++ [')'] = joinWith [' '] zs := by
      intro w ws
      induction ws generalizing w with
      | nil =>
        intro h
        refine ⟨[w ++ [')']], by simp, ?_, rfl⟩
        intro z hz
        simp at hz; subst hz
        refine ⟨by simp, ?_⟩
        intro c hc
        rcases List.mem_append.1 hc with hc | hc
        · exact (h w (by simp)).2 c hc
        · simp at hc; subst hc; decide
      | cons y ys ih =>
        intro h
        obtain ⟨zs, hz, hzw, he⟩ := ih y (fun x hx => h x (by simp [hx]))
        refine ⟨w :: zs, by simp, ?_, ?_⟩
        · intro z hzm
          rcases List.mem_cons.1 hzm with rfl | hzm
          · exact h _ (by simp)
          · exact hzw z hzm
        · rw [joinWith_cons _ _ _ (by simp), joinWith_cons _ _ _ hz, List.append_assoc, he]
    obtain ⟨zs, hz, hzw, he⟩ := hlast w ws hw
    have key : ∃ ys, ys ≠ [] ∧ (∀ z ∈ ys, IsWord z) ∧ '(' :: v ++ [')'] = joinWith [' '] ys := by
      cases zs with
      | nil => exact absurd rfl hz
      | cons z zs =>
        refine ⟨('(' :: z) :: zs, by simp, ?_, ?_⟩
        · intro y hy
          rcases List.mem_cons.1 hy with rfl | hy
          · refine ⟨by simp, ?_⟩
            intro c hc
            rcases List.mem_cons.1 hc with rfl | hc
            · decide
            · exact (hzw z (by simp)).2 c hc
          · exact hzw y (by simp [hy])
        · rw [hv, List.cons_append, he]
          cases zs with
          | nil => rfl
          | cons a b => rfl
    obtain ⟨ys, h1, h2, h3⟩ := key
    rw [h3, words_join _ h2]
    exact ⟨rfl, h1⟩

theorem join_flatMap (us : List Str) (h : ∀ u ∈ us, u = joinWith [' '] (words u) ∧ words u ≠ []) :
    joinWith [' '] (us.flatMap words) = joinWith [' '] us := by
  induction us with
  | nil => rfl
  | cons u us ih =>
    have hu := h u (by simp)
    have ih := ih (fun u hu => h u (by simp [hu]))
    by_cases hn : us = []
    · subst hn; simp only [List.flatMap_cons, List.flatMap_nil, List.append_nil, joinWith]; exact hu.1.symm
    · have : us.flatMap words ≠ [] := by
        cases us with
        | nil => exact absurd rfl hn
        | cons a b =>
          have := (h a (by simp)).2
          simp [this]
      rw [List.flatMap_cons, joinWith_append _ _ _ hu.2 this, ih, joinWith_cons _ _ _ hn, ← hu.1]

theorem clean_units (us : List Str) (h : ∀ u ∈ us, UnitOK u) :
    joinWith [' '] (words (headerText us)) = joinWith [' '] us := by
  rw [words_header, join_flatMap us (fun u hu => (h u hu).words)]

theorem countChar_append (c : Char) (s t : Str) : countChar c (s ++ t) = countChar c s + countChar c t := by
  simp [countChar]

theorem countChar_none (c : Char) (s : Str) (h : c ∉ s) : countChar c s = 0 := by
  simp only [countChar, List.countP_eq_zero, beq_iff_eq]
  intro a ha e; exact h (e ▸ ha)

theorem count_unit (u : Str) (h : UnitOK u) : countChar '(' u = 1 ∧ countChar ')' u = 1 := by
  obtain ⟨v, rfl, _, h1, h2, _, _⟩ := h
  have e : '(' :: v ++ [')'] = ['('] ++ v ++ [')'] := rfl
  rw [e]
  simp only [countChar_append, countChar_none _ _ h1, countChar_none _ _ h2]
  decide

theorem count_units (c : Char) (us : List Str) (hc : c ≠ ' ') (h : ∀ u ∈ us, countChar c u = 1) :
    countChar c (joinWith [' '] us) = us.length := by
  induction us with
  | nil => rfl
  | cons u us ih =>
    have ih := ih (fun u hu => h u (by simp [hu]))
    by_cases hn : us = []
    · subst hn; simpa [joinWith] using h u (by simp)
    · rw [joinWith_cons _ _ _ hn]
      simp only [countChar_append, h u (by simp), ih, List.length_cons]
      rw [countChar_none c [' '] (by simpa using hc)]; omega

theorem filter_none (c : Char) (s : Str) (h : c ∉ s) : s.filter (· != c) = s := by
  rw [List.filter_eq_self]
  intro a ha
  simp only [bne_iff_ne, ne_eq]
  intro e; exact h (e ▸ ha)

/-- splitting the units at their closing parenthesis -/
theorem split_units (pre : Str) (us : List Str) (hp : ')' ∉ pre ∧ '(' ∉ pre) (h : ∀ u ∈ us, UnitOK u) (hne : us ≠ []) :
    ∃ ps, splitOn ')' ((pre ++ joinWith [' '] us).filter (· != '(')) = ps ++ [[]] ∧ ps.length = us.length ∧
      ps.map wrapUnit = ((wrapUnit (pre ++ ((us.headD []).filter (fun c => c != '(' && c != ')')))) :: us.tail) := by
  induction us generalizing pre with
  | nil => exact absurd rfl hne
  | cons u us ih =>
    obtain ⟨v, rfl, hv, h1, h2, h3, h4⟩ := h u (by simp)
    have hf : ('(' :: v ++ [')']).filter (fun c => c != '(' && c != ')') = v := by
      have : ('(' :: v ++ [')']) = ['('] ++ v ++ [')'] := rfl
      rw [this, List.filter_append, List.filter_append]
      have hv' : v.filter (fun c => c != '(' && c != ')') = v := by
        rw [List.filter_eq_self]
        intro a ha
        simp only [bne_iff_ne, ne_eq, Bool.and_eq_true]
        exact ⟨fun e => h1 (e ▸ ha), fun e => h2 (e ▸ ha)⟩
      rw [hv']
      have a1 : List.filter (fun c => c != '(' && c != ')') ['('] = [] := by decide
      have a2 : List.filter (fun c => c != '(' && c != ')') [')'] = [] := by decide
      rw [a1, a2]; simp
    have hpv : ')' ∉ pre ++ v := by simp [hp.1, h2]
    by_cases hn : us = []
    · subst hn
      refine ⟨[pre ++ v], ?_, rfl, ?_⟩
      · have e : (pre ++ joinWith [' '] ['(' :: v ++ [')']]).filter (· != '(') = (pre ++ v) ++ ')' :: [] := by
          simp only [joinWith, List.filter_append, List.filter_cons, filter_none _ _ hp.2]
          simp [filter_none _ _ h1]
        rw [e, splitOn_append _ _ _ hpv]; rfl
      · simp only [List.map_cons, List.map_nil, List.headD_cons, List.tail_cons]
        rw [hf]
    · obtain ⟨ps, i1, i2, i3⟩ := ih [' '] (by decide) (fun u hu => h u (by simp [hu])) hn
      refine ⟨(pre ++ v) :: ps, ?_, by simp [i2], ?_⟩
      · rw [joinWith_cons _ _ _ hn]
        have e : (pre ++ ('(' :: v ++ [')'] ++ [' '] ++ joinWith [' '] us)).filter (· != '(')
            = (pre ++ v) ++ ')' :: (([' '] ++ joinWith [' '] us).filter (· != '(')) := by
          simp only [List.filter_append, filter_none _ _ hp.2, List.filter_cons]
          simp [filter_none _ _ h1]
        rw [e, splitOn_append _ _ _ hpv, i1]; rfl
      · rw [List.map_cons, i3]
        simp only [List.headD_cons, List.tail_cons]
        congr 1
        · rw [hf]
        · cases us with
          | nil => exact absurd rfl hn
          | cons w us =>
            simp only [List.headD_cons, List.tail_cons]
            congr 1
            obtain ⟨x, rfl, hx, g1, g2, _, _⟩ := h w (by simp)
            have hf2 : ('(' :: x ++ [')']).filter (fun c => c != '(' && c != ')') = x := by
              have : ('(' :: x ++ [')']) = ['('] ++ x ++ [')'] := rfl
              rw [this, List.filter_append, List.filter_append]
              have hv' : x.filter (fun c => c != '(' && c != ')') = x := by
                rw [List.filter_eq_self]
                intro a ha
                simp only [bne_iff_ne, ne_eq, Bool.and_eq_true]
                exact ⟨fun e => g1 (e ▸ ha), fun e => g2 (e ▸ ha)⟩
              rw [hv']
              have a1 : List.filter (fun c => c != '(' && c != ')') ['('] = [] := by decide
              have a2 : List.filter (fun c => c != '(' && c != ')') [')'] = [] := by decide
              rw [a1, a2]; simp
            rw [hf2]
            unfold wrapUnit
            rw [List.singleton_append, strip_space, hx, strip_join _ (words_isWord x)]

theorem unit_inner (v : Str) (h1 : '(' ∉ v) (h2 : ')' ∉ v) :
    ('(' :: v ++ [')']).filter (fun c => c != '(' && c != ')') = v := by
  have : ('(' :: v ++ [')']) = ['('] ++ v ++ [')'] := rfl
  rw [this, List.filter_append, List.filter_append]
  have hv' : v.filter (fun c => c != '(' && c != ')') = v := by
    rw [List.filter_eq_self]
    intro a ha
    simp only [bne_iff_ne, ne_eq, Bool.and_eq_true]
    exact ⟨fun e => h1 (e ▸ ha), fun e => h2 (e ▸ ha)⟩
  rw [hv']
  have a1 : List.filter (fun c => c != '(' && c != ')') ['('] = [] := by decide
  have a2 : List.filter (fun c => c != '(' && c != ')') [')'] = [] := by decide
  rw [a1, a2]; simp

/-- `detectUnits` on a line of units -/
theorem detectUnits_line (us : List Str) (h : ∀ u ∈ us, UnitOK u) (n : Nat) (hn : n ≤ us.length) (hne : us ≠ []) :
    (detectUnits (joinWith [' '] us) n).map wrapUnit = us := by
  unfold detectUnits
  rw [count_units '(' us (by decide) (fun u hu => (count_unit u (h u hu)).1),
    count_units ')' us (by decide) (fun u hu => (count_unit u (h u hu)).2), if_pos ⟨rfl, hn⟩]
  obtain ⟨ps, h1, h2, h3⟩ := split_units [] us (by simp) h hne
  simp only [List.nil_append] at h1 h3
  rw [h1, List.dropLast_concat, h3]
  cases us with
  | nil => exact absurd rfl hne
  | cons u us =>
    obtain ⟨v, rfl, hv, g1, g2, _, _⟩ := h u (by simp)
    simp only [List.headD_cons, List.tail_cons]
    rw [unit_inner v g1 g2]
    unfold wrapUnit
    have : strip v = v := by rw [hv, strip_join _ (words_isWord v)]
    rw [this]

theorem units_notMem (us : List Str) (h : ∀ u ∈ us, UnitOK u) :
    '!' ∉ joinWith [' '] us ∧ '#' ∉ joinWith [' '] us := by
  constructor
  · apply notMem_join _ _ _ (by decide)
    intro u hu
    obtain ⟨v, rfl, _, _, _, h3, _⟩ := h u hu
    simp [h3]
  · apply notMem_join _ _ _ (by decide)
    intro u hu
    obtain ⟨v, rfl, _, _, _, _, h4⟩ := h u hu
    simp [h4]

theorem headerUnits_line (us : List Str) (h : ∀ u ∈ us, UnitOK u) (n : Nat) (hn : n ≤ us.length) (hne : us ≠ []) :
    headerUnits (headerText us) n = us := by
  unfold headerUnits
  obtain ⟨h1, h2⟩ := units_notMem us h
  simp only [cleanLine_eq, clean_units us h, cleanAfterChar_none _ _ h1, cleanAfterChar_none _ _ h2,
    startsWith_one _ _ h1]
  rw [if_neg (by simp)]
  exact detectUnits_line us h n hn hne

theorem headerUnits_bang (us : List Str) (h : ∀ u ∈ us, UnitOK u) (n : Nat) (hn : n ≤ us.length) (hne : us ≠ []) :
    headerUnits ("! ".toList ++ headerText us) n = us := by
  unfold headerUnits
  obtain ⟨h1, h2⟩ := units_notMem us h
  have hw : words (headerText us) ≠ [] := by
    rw [words_header]
    cases us with
    | nil => exact absurd rfl hne
    | cons a b =>
      have := (h a (by simp)).words.2
      simp [this]
  have hb : '#' ∉ '!' :: ' ' :: joinWith [' '] us := by simp [h2]
  simp only [clean_bang _ _ rfl hw, clean_units us h, cleanAfterChar_head, cleanAfterChar_none _ _ hb]
  rw [if_pos (by simp [startsWith, List.isPrefixOf])]
  simp only [List.drop_succ_cons, List.drop_zero]
  rw [strip_space]
  have : strip (joinWith [' '] us) = joinWith [' '] us := by
    rw [← clean_units us h, strip_join _ (words_isWord _)]
  rw [this]
  exact detectUnits_line us h n hn hne

theorem rewrapUnit_id (u : Str) (h : UnitOK u) : rewrapUnit u = u := by
  obtain ⟨v, rfl, _, h1, h2, _, _⟩ := h
  unfold rewrapUnit
  rw [unit_inner v h1 h2]

/-! ### rows of numbers -/

theorem replaceFuel_none (a b : Str) (n : Nat) (s : Str) (h : ∀ c, a.head? = some c → c ∉ s) (ha : a ≠ []) :
    replaceFuel a b n s = s := by
  induction n generalizing s with
  | zero => rfl
  | succ n ih =>
    cases s with
    | nil => rfl
    | cons x s =>
      rw [replaceFuel, if_neg, ih s (fun c hc hm => h c hc (by simp [hm]))]
      cases a with
      | nil => exact absurd rfl ha
      | cons y a =>
        have := h y rfl
        simp at this
        simp [startsWith, List.isPrefixOf, this.1]

theorem replaceStr_none (a b s : Str) (h : ∀ c, a.head? = some c → c ∉ s) (ha : a ≠ []) :
    replaceStr a b s = s := replaceFuel_none a b _ s h ha

theorem conv_plain (N : Num) (w : Str) (h : ∀ c ∈ w, c ≠ 't' ∧ c ≠ 'f' ∧ c ≠ 'n' ∧ c ≠ 'p') :
    conv N w = N.parse w := by
  unfold conv
  rw [replaceStr_none "true".toList _ w (by intro c hc hm; simp at hc; subst hc; exact (h _ hm).1 rfl) (by decide),
    replaceStr_none "false".toList _ w (by intro c hc hm; simp at hc; subst hc; exact (h _ hm).2.1 rfl) (by decide),
    replaceStr_none "noprint".toList _ w (by intro c hc hm; simp at hc; subst hc; exact (h _ hm).2.2.1 rfl) (by decide),
    replaceStr_none "print".toList _ w (by intro c hc hm; simp at hc; subst hc; exact (h _ hm).2.2.2 rfl) (by decide)]

/-- characters of a number -/
theorem numChar (c : Char) (h : c.isDigit = true ∨ c = '+' ∨ c = '-' ∨ c = '.' ∨ c = 'e' ∨ c = 'E') :
    isWs c = false ∧ c ≠ '!' ∧ c ≠ '#' ∧ isWs c.toLower = false ∧ c.toLower ≠ '!' ∧ c.toLower ≠ '#' ∧
      c.toLower ≠ 't' ∧ c.toLower ≠ 'f' ∧ c.toLower ≠ 'n' ∧ c.toLower ≠ 'p' := by
  rcases h with h | rfl | rfl | rfl | rfl | rfl
  · have hl : c.toLower = c := by
      unfold Char.toLower
      simp only [Char.isDigit, Bool.and_eq_true, decide_eq_true_eq] at h
      split
      · next hu =>
        exfalso
        have h1 := h.2
        have h2 := hu.1
        exact absurd (UInt32.le_trans h2 h1) (by decide)
      · rfl
    have key : ∀ k : Nat, k < 48 ∨ 57 < k → c.toNat ≠ k := by
      intro k hk e
      simp only [Char.isDigit, Bool.and_eq_true, decide_eq_true_eq] at h
      have h1 : 48 ≤ c.toNat := h.1
      have h2 : c.toNat ≤ 57 := h.2
      omega
    have hne : ∀ d : Char, (d.toNat < 48 ∨ 57 < d.toNat) → c ≠ d := by
      intro d hd e; exact key d.toNat hd (by rw [e])
    rw [hl]
    have hw := (digit_facts c h).1
    exact ⟨hw, hne _ (by decide), hne _ (by decide), hw, hne _ (by decide), hne _ (by decide),
      hne _ (by decide), hne _ (by decide), hne _ (by decide), hne _ (by decide)⟩
  all_goals decide

theorem lower_replicate (k : Nat) (w : Str) : lower (List.replicate k ' ' ++ w) = List.replicate k ' ' ++ lower w := by
  unfold lower
  rw [List.map_append, List.map_replicate]; rfl

theorem words_spaces (k : Nat) (w : Str) : words (List.replicate k ' ' ++ w) = words w := by
  induction k with
  | zero => simp
  | succ k ih => rw [List.replicate_succ, List.cons_append, words_cons_ws _ _ isWs_space, ih]

/-- facts about the text of a number -/
theorem NumTextOK.facts {N : Num} {t : Str} {x : N.F} (h : NumTextOK N t x) :
    ∃ w, words (lower t) = [w] ∧ conv N w = some x ∧ '!' ∉ lower t ∧ '#' ∉ lower t ∧
      (∀ c ∈ t, isLineBreak c = false) ∧ t ≠ [] := by
  obtain ⟨k, w, rfl, hne, hc, hp⟩ := h
  have hlw : IsWord (lower w) := by
    refine ⟨by simpa [lower] using hne, ?_⟩
    intro c hcm
    obtain ⟨d, hd, rfl⟩ := List.mem_map.1 hcm
    exact (numChar d (hc d hd)).2.2.2.1
  refine ⟨lower w, ?_, ?_, ?_, ?_, ?_, ?_⟩
  · rw [lower_replicate, words_spaces, words_word hlw]
  · rw [conv_plain]
    · exact hp
    · intro c hcm
      obtain ⟨d, hd, rfl⟩ := List.mem_map.1 hcm
      exact (numChar d (hc d hd)).2.2.2.2.2.2
  · rw [lower_replicate]
    intro hm
    rcases List.mem_append.1 hm with hm | hm
    · have := List.eq_of_mem_replicate hm; revert this; decide
    · obtain ⟨d, hd, e⟩ := List.mem_map.1 hm
      exact (numChar d (hc d hd)).2.2.2.2.1 e
  · rw [lower_replicate]
    intro hm
    rcases List.mem_append.1 hm with hm | hm
    · have := List.eq_of_mem_replicate hm; revert this; decide
    · obtain ⟨d, hd, e⟩ := List.mem_map.1 hm
      exact (numChar d (hc d hd)).2.2.2.2.2.1 e
  · intro c hcm
    rcases List.mem_append.1 hcm with hm | hm
    · rw [List.eq_of_mem_replicate hm]; decide
    · cases hb : isLineBreak c with
      | false => rfl
      | true =>
        exfalso
        have h1 := (numChar c (hc c hm)).1
        have : isWs c = true := by
          unfold isLineBreak at hb
          unfold isWs
          simp only [Bool.or_eq_true, Bool.and_eq_true, decide_eq_true_eq, beq_iff_eq] at hb ⊢
          omega
        rw [h1] at this; simp at this
  · intro e
    have := (List.append_eq_nil_iff.1 e).2
    exact hne this

theorem lower_join (ts : List Str) : lower (joinWith ['\t'] ts) = joinWith ['\t'] (ts.map lower) := by
  induction ts with
  | nil => rfl
  | cons t ts ih =>
    by_cases h : ts = []
    · subst h; rfl
    · rw [joinWith_cons _ _ _ h, List.map_cons, joinWith_cons _ _ _ (by simpa using h), ← ih]
      simp only [lower, List.map_append]
      rfl

/-- the tokens of a row of numbers -/
theorem numTokens_row (N : Num) (ts : List Str) (xs : List N.F)
    (h : List.Forall₂ (NumTextOK N) ts xs) :
    (numTokens (joinWith ['\t'] ts)).map (conv N) = xs.map some ∧
      (numTokens (joinWith ['\t'] ts)).length = xs.length := by
  have hall : ∀ t ∈ ts, '!' ∉ lower t ∧ '#' ∉ lower t := by
    intro t ht
    induction h with
    | nil => simp at ht
    | cons hx _ ih =>
      rcases List.mem_cons.1 ht with rfl | ht
      · obtain ⟨w, _, _, h3, h4, _⟩ := hx.facts; exact ⟨h3, h4⟩
      · exact ih ht
  have e : numTokens (joinWith ['\t'] ts) = (ts.map lower).flatMap words := by
    unfold numTokens
    rw [lower_join]
    have h1 : '!' ∉ joinWith ['\t'] (ts.map lower) := by
      apply notMem_join _ _ _ (by decide)
      intro w hw
      obtain ⟨t, ht, rfl⟩ := List.mem_map.1 hw
      exact (hall t ht).1
    have h2 : '#' ∉ joinWith ['\t'] (ts.map lower) := by
      apply notMem_join _ _ _ (by decide)
      intro w hw
      obtain ⟨t, ht, rfl⟩ := List.mem_map.1 hw
      exact (hall t ht).2
    rw [cleanAfterChar_none _ _ h1, cleanAfterChar_none _ _ h2, words_joinWs _ (by decide)]
  rw [e]
  clear e hall
  induction h with
  | nil => exact ⟨rfl, rfl⟩
  | cons hx _ ih =>
    obtain ⟨w, h1, h2, _⟩ := hx.facts
    simp only [List.map_cons, List.flatMap_cons, h1, List.singleton_append, h2, List.length_cons]
    exact ⟨by rw [ih.1], by rw [ih.2]⟩

theorem mapM_of_map {α β : Type} (f : α → Option β) (l : List α) (r : List β) (h : l.map f = r.map some) :
    l.mapM f = some r := by
  induction l generalizing r with
  | nil => cases r with
    | nil => rfl
    | cons a b => simp at h
  | cons a l ih =>
    cases r with
    | nil => simp at h
    | cons b r =>
      simp only [List.map_cons, List.cons.injEq] at h
      rw [List.mapM_cons, h.1, ih r h.2]; rfl

/-- a row of numbers is read back -/
theorem numRow_row (N : Num) (ts : List Str) (xs : List N.F) (h : List.Forall₂ (NumTextOK N) ts xs) :
    numRow (conv N) xs.length (numTokens (joinWith ['\t'] ts)) = .ok xs := by
  obtain ⟨h1, h2⟩ := numTokens_row N ts xs h
  unfold numRow
  rw [← h2, List.take_length, mapM_of_map _ _ _ h1]
  simp [h2]

/-- texts of rows -/
abbrev RowTexts (N : Num) (tss : List (List Str)) (rows : List (List N.F)) (w : Nat) : Prop :=
  List.Forall₂ (fun ts r => List.Forall₂ (NumTextOK N) ts r ∧ r.length = w) tss rows

theorem numRows_rows (N : Num) (w : Nat) (tss : List (List Str)) (rows : List (List N.F))
    (h : RowTexts N tss rows w) :
    numRows (conv N) w (tss.map (joinWith ['\t'])) = .ok rows := by
  induction h with
  | nil => rfl
  | cons hr _ ih =>
    rw [List.map_cons, numRows]
    have := numRow_row N _ _ hr.1
    rw [hr.2] at this
    rw [this, ih]

theorem getD_append_zero (a b : List Str) (h : a ≠ []) : (a ++ b).getD 0 [] = a.getD 0 [] := by
  cases a with
  | nil => exact absurd rfl h
  | cons x a => rfl

/-- `parseFASTNumTable` on one or two header lines followed by rows of numbers -/
theorem parseNum_rows (N : Num) (names : List Str) (heads : List Str) (w : Nat) (tss : List (List Str))
    (rows : List (List N.F)) (h : RowTexts N tss rows w) (hw : w = names.length) (hpos : names ≠ [])
    (hh : heads ≠ []) (hn : headerNames (heads.getD 0 []) = names) :
    parseNum (conv N) N.numCount (heads ++ tss.map (joinWith ['\t'])) rows.length heads.length 0
      = .ok ⟨rows, names⟩ := by
  have hlen : tss.length = rows.length := h.length_eq
  have hHl : heads.length ≠ 0 := by simpa using hh
  unfold parseNum
  rw [if_neg (by simp [hlen]; omega)]
  have ht : tableNames N.numCount (heads ++ tss.map (joinWith ['\t'])) heads.length 0 = .ok names := by
    unfold tableNames
    rw [if_neg hHl, ← hn, getD_append_zero _ _ hh]
  rw [ht]
  simp only [Nat.add_zero, List.drop_left, hHl, if_false]
  cases h with
  | nil => simp
  | cons hr hrest =>
    rename_i ts r tss rows
    have hrow := numTokens_row N ts r hr.1
    have hwl : (numTokens (joinWith ['\t'] ts)).length = names.length := by rw [hrow.2, hr.2, hw]
    simp only [List.map_cons, hwl]
    rw [if_neg (by simp)]
    unfold extendNames
    rw [if_neg (by simp)]
    simp only
    have := numRows_rows N w (ts :: tss) (r :: rows) (.cons hr hrest)
    rw [List.map_cons, hw] at this
    rw [this]
    simp

/-- the width of the first row -/
theorem dataWidth_rows (N : Num) (names : List Str) (heads : List Str) (w : Nat) (tss : List (List Str))
    (rows : List (List N.F)) (h : RowTexts N tss rows w) (hw : w = names.length) :
    (dataWidth numTokens (heads ++ tss.map (joinWith ['\t'])) (heads.length + 0)).getD names.length = names.length := by
  unfold dataWidth
  rw [Nat.add_zero, List.getElem?_append_right (Nat.le_refl _), Nat.sub_self]
  cases h with
  | nil => rfl
  | cons hr _ =>
    simp only [List.map_cons, List.getElem?_cons_zero, Option.map_some, Option.getD_some]
    rw [(numTokens_row N _ _ hr.1).2, hr.2, hw]

theorem numExtra_zero (names : List Str) : numExtra names names.length = 0 := by
  unfold numExtra; rw [if_neg (by simp)]

theorem rewrap_map (us : List Str) (h : ∀ u ∈ us, UnitOK u) : us.map rewrapUnit = us := by
  have : us.map rewrapUnit = us.map id := List.map_congr_left (fun u hu => rewrapUnit_id u (h u hu))
  rw [this, List.map_id]

/-- `readNum` on a table with two header lines -/
theorem readNum_two (N : Num) (names us : List Str) (h0 h1 : Str) (tss : List (List Str))
    (rows : List (List N.F)) (h : RowTexts N tss rows names.length) (hpos : names ≠ [])
    (hn : headerNames h0 = names) (hu : headerUnits h1 names.length = us) (hul : us.length = names.length)
    (huo : ∀ u ∈ us, UnitOK u) :
    readNum N (h0 :: h1 :: tss.map (joinWith ['\t'])) rows.length 2 0
      = .ok ⟨.num rows, some names, some us⟩ := by
  unfold readNum
  have hp := parseNum_rows N names [h0, h1] _ tss rows h rfl hpos (by simp) hn
  have hd := dataWidth_rows N names [h0, h1] _ tss rows h rfl
  simp only [List.cons_append, List.nil_append, List.length_cons, List.length_nil] at hp hd
  rw [hp]
  simp only [List.getD_cons_zero, hn]
  rw [show (2 + 0 : Nat) = 0 + 1 + 1 + 0 from rfl, hd, numExtra_zero]
  simp only [tableUnits, List.getD_cons_succ, List.getD_cons_zero, hu]
  simp only [List.replicate_zero, List.append_nil, ← hul, List.take_length, rewrap_map us huo]
  simp

/-- `readNum` on a table with one header line -/
theorem readNum_one (N : Num) (names : List Str) (h0 : Str) (tss : List (List Str))
    (rows : List (List N.F)) (h : RowTexts N tss rows names.length) (hpos : names ≠ [])
    (hn : headerNames h0 = names) :
    readNum N (h0 :: tss.map (joinWith ['\t'])) rows.length 1 0 = .ok ⟨.num rows, some names, none⟩ := by
  unfold readNum
  have hp := parseNum_rows N names [h0] _ tss rows h rfl hpos (by simp) hn
  simp only [List.cons_append, List.nil_append, List.length_cons, List.length_nil] at hp
  rw [hp]
  simp [tableUnits]

/-! ### rows of words -/

theorem mixTokens_row (ts : List Str) (h : ∀ t ∈ ts, WordOK t) : mixTokens (joinWith ['\t'] ts) = ts := by
  unfold mixTokens
  have h1 : '!' ∉ joinWith ['\t'] ts := notMem_join _ _ _ (by decide) (fun t ht => (h t ht).2.1)
  have h2 : '#' ∉ joinWith ['\t'] ts := notMem_join _ _ _ (by decide) (fun t ht => (h t ht).2.2)
  rw [cleanAfterChar_none _ _ h1, cleanAfterChar_none _ _ h2, words_joinWs _ (by decide),
    flatMap_words_self _ (fun t ht => (h t ht).1)]

theorem startsWith_join (t : Str) (ts : List Str) (h : startsWith t "---".toList = false) :
    startsWith (joinWith ['\t'] (t :: ts)) "---".toList = false := by
  cases ts with
  | nil => exact h
  | cons a b =>
    rw [joinWith_cons _ _ _ (by simp), List.append_assoc, List.singleton_append]
    generalize joinWith ['\t'] (a :: b) = u
    match t with
    | [] => simp [startsWith, List.isPrefixOf]
    | [x] =>
      by_cases hx : x = '-' <;> simp [startsWith, List.isPrefixOf, hx]
    | [x, y] =>
      by_cases hx : x = '-' <;> by_cases hy : y = '-' <;> simp [startsWith, List.isPrefixOf, hx, hy]
    | x :: y :: z :: t =>
      simp [startsWith, List.isPrefixOf] at h ⊢
      exact h

theorem mixRow_full (v : List Str) : mixRow v.length v = v.map some := by
  simp [mixRow]

/-- words of rows -/
def WordRows (tss : List (List Str)) (w : Nat) : Prop :=
  ∀ ts ∈ tss, (∀ t ∈ ts, WordOK t) ∧ ts.length = w ∧ ∃ t r, ts = t :: r ∧ startsWith t "---".toList = false

theorem mixRows_rows (w : Nat) (tss : List (List Str)) (h : WordRows tss w) :
    mixRows w (tss.map (joinWith ['\t'])) = .ok (tss.map (List.map some)) := by
  induction tss with
  | nil => rfl
  | cons ts tss ih =>
    obtain ⟨h1, h2, t, r, h3, h4⟩ := h ts (by simp)
    rw [List.map_cons, mixRows]
    have a1 : '!' ∉ joinWith ['\t'] ts := notMem_join _ _ _ (by decide) (fun t ht => (h1 t ht).2.1)
    have a2 : '#' ∉ joinWith ['\t'] ts := notMem_join _ _ _ (by decide) (fun t ht => (h1 t ht).2.2)
    rw [cleanAfterChar_none _ _ a1, cleanAfterChar_none _ _ a2]
    have hs : startsWith (joinWith ['\t'] ts) "---".toList = false := by rw [h3]; exact startsWith_join t r h4
    rw [hs, if_neg (by simp), ih (fun ts hts => h ts (by simp [hts])), mixTokens_row _ h1]
    simp only [List.map_cons]
    rw [← h2, mixRow_full]

theorem parseMix_rows (names : List Str) (heads : List Str) (tss : List (List Str))
    (h : WordRows tss names.length) (hpos : names ≠ []) (hh : heads ≠ [])
    (hn : headerNames (heads.getD 0 []) = names) :
    parseMix (heads ++ tss.map (joinWith ['\t'])) tss.length heads.length 0
      = .ok ⟨tss.map (List.map some), names⟩ := by
  have hHl : heads.length ≠ 0 := by simpa using hh
  have hn' : headerNames ((heads ++ tss.map (joinWith ['\t'])).getD 0 []) = names := by
    rw [getD_append_zero _ _ hh, hn]
  unfold parseMix
  rw [if_neg (by simp; omega), if_neg hHl]
  simp only [hn', Nat.add_zero, List.drop_left]
  cases tss with
  | nil => rfl
  | cons ts tss =>
    obtain ⟨h1, h2, _⟩ := h ts (by simp)
    have hm := mixRows_rows names.length (ts :: tss) h
    simp only [List.map_cons] at hm ⊢
    simp only [mixTokens_row _ h1, h2]
    rw [if_neg (by simp), if_neg (by simp)]
    simp only [Nat.lt_irrefl, if_false]
    rw [hm]
    simp

theorem dataWidth_words (names : List Str) (heads : List Str) (tss : List (List Str))
    (h : WordRows tss names.length) :
    (dataWidth mixTokens (heads ++ tss.map (joinWith ['\t'])) (heads.length + 0)).getD names.length = names.length := by
  unfold dataWidth
  rw [Nat.add_zero, List.getElem?_append_right (Nat.le_refl _), Nat.sub_self]
  cases tss with
  | nil => rfl
  | cons ts tss =>
    obtain ⟨h1, h2, _⟩ := h ts (by simp)
    simp only [List.map_cons, List.getElem?_cons_zero, Option.map_some, Option.getD_some, mixTokens_row _ h1, h2]

theorem readMix_two (N : Num) (names us : List Str) (h0 h1 : Str) (tss : List (List Str))
    (h : WordRows tss names.length) (hpos : names ≠ [])
    (hn : headerNames h0 = names) (hu : headerUnits h1 names.length = us) (hul : us.length = names.length)
    (huo : ∀ u ∈ us, UnitOK u) :
    readMix N (h0 :: h1 :: tss.map (joinWith ['\t'])) tss.length 2 0
      = .ok ⟨.mix (mixCells N (tss.map (List.map some))), some names, some us⟩ := by
  unfold readMix
  have hp := parseMix_rows names [h0, h1] tss h hpos (by simp) hn
  have hd := dataWidth_words names [h0, h1] tss h
  simp only [List.cons_append, List.nil_append, List.length_cons, List.length_nil] at hp hd
  rw [hp]
  simp only [List.getD_cons_zero, hn]
  rw [show (2 + 0 : Nat) = 0 + 1 + 1 + 0 from rfl, hd, Nat.sub_self]
  simp only [tableUnits, List.getD_cons_succ, List.getD_cons_zero, hu]
  simp only [List.replicate_zero, List.append_nil, ← hul, List.take_length, rewrap_map us huo]
  simp

theorem readMix_one (N : Num) (names : List Str) (h0 : Str) (tss : List (List Str))
    (h : WordRows tss names.length) (hpos : names ≠ []) (hn : headerNames h0 = names) :
    readMix N (h0 :: tss.map (joinWith ['\t'])) tss.length 1 0
      = .ok ⟨.mix (mixCells N (tss.map (List.map some))), some names, none⟩ := by
  unfold readMix
  have hp := parseMix_rows names [h0] tss h hpos (by simp) hn
  simp only [List.cons_append, List.nil_append, List.length_cons, List.length_nil] at hp
  rw [hp]
  simp [tableUnits]

end Verif.FastRead
