import Verif.Lemmas.Str
import Verif.Spec.FastLine
/-! Helper lemmas for the line properties (C11–C14). -/
namespace Verif.FastLine
open Verif.Py Verif.FastDict

theorem cleanLine_eq (l : Str) : cleanLine l = joinWith [' '] (words l) := by
  unfold cleanLine
  rw [words_replace_tab, strip_join _ (words_isWord l)]

/-! ### comma splitting -/

theorem replaceChar_append (a : Char) (b s t : Str) :
    replaceChar a b (s ++ t) = replaceChar a b s ++ replaceChar a b t := by
  simp [replaceChar]

theorem replaceChar_none (a : Char) (b s : Str) (h : a ∉ s) : replaceChar a b s = s := by
  induction s with
  | nil => rfl
  | cons x s ih =>
    simp at h
    have hx : ¬ x = a := fun e => h.1 e.symm
    have e : replaceChar a b (x :: s) = (if x = a then b else [x]) ++ replaceChar a b s := rfl
    rw [e, ih h.2]; simp [hx]

theorem collapse_word (t u : Str) (h : ',' ∉ t) : collapseCommas (t ++ u) = t ++ collapseCommas u := by
  induction t with
  | nil => rfl
  | cons x t ih =>
    simp at h
    have hx : ¬ x = ',' := fun e => h.1 e.symm
    simp [collapseCommas, hx, ih h.2]

theorem collapse_comma (u : Str) (h : u.head? ≠ some ',') :
    collapseCommas (',' :: u) = ',' :: collapseCommas u := by
  cases u with
  | nil => simp [collapseCommas]
  | cons d u =>
    have hd : ¬ d = ',' := fun e => h (by simp [e])
    conv => lhs; unfold collapseCommas
    simp [hd]

theorem collapse_two (u : Str) : collapseCommas (',' :: ',' :: u) = collapseCommas (',' :: u) := by
  conv => lhs; unfold collapseCommas
  simp

theorem head_commaize (s : Str) (h1 : s.head? ≠ some ',') (h2 : s.head? ≠ some ' ') :
    (replaceChar ' ' [','] s).head? ≠ some ',' := by
  cases s with
  | nil => simp [replaceChar]
  | cons x s =>
    have hx1 : ¬ x = ',' := fun e => h1 (by simp [e])
    have hx2 : ¬ x = ' ' := fun e => h2 (by simp [e])
    simp [replaceChar, hx1, hx2]

theorem csplits_space (t s : Str) (hc : ',' ∉ t) (hs : ' ' ∉ t) (h1 : s.head? ≠ some ',')
    (h2 : s.head? ≠ some ' ') : csplits (t ++ ' ' :: s) = t :: csplits s := by
  unfold csplits
  have e : replaceChar ' ' [','] (t ++ ' ' :: s) = t ++ ',' :: replaceChar ' ' [','] s := by
    rw [replaceChar_append, replaceChar_none _ _ _ hs]; rfl
  rw [e, collapse_word _ _ hc, collapse_comma _ (head_commaize s h1 h2), splitOn_append _ _ _ hc]

theorem csplits_commaspace (t s : Str) (hc : ',' ∉ t) (hs : ' ' ∉ t) (h1 : s.head? ≠ some ',')
    (h2 : s.head? ≠ some ' ') : csplits (t ++ ',' :: ' ' :: s) = t :: csplits s := by
  unfold csplits
  have e : replaceChar ' ' [','] (t ++ ',' :: ' ' :: s) = t ++ ',' :: ',' :: replaceChar ' ' [','] s := by
    rw [replaceChar_append, replaceChar_none _ _ _ hs]; rfl
  rw [e, collapse_word _ _ hc, collapse_two, collapse_comma _ (head_commaize s h1 h2), splitOn_append _ _ _ hc]

theorem csplits_single (t : Str) (hc : ',' ∉ t) (hs : ' ' ∉ t) : csplits t = [t] := by
  unfold csplits
  rw [replaceChar_none _ _ _ hs]
  have := collapse_word t [] hc
  simp at this
  rw [this, show collapseCommas [] = [] from rfl, List.append_nil, splitOn_noSep _ _ hc]

theorem splitOn_head (c x : Char) (s : Str) (h : x ≠ c) :
    ∃ w ws, splitOn c (x :: s) = (x :: w) :: ws := by
  simp only [splitOn, h, if_false]
  cases hs : splitOn c s with
  | nil => exact absurd hs (splitOn_ne_nil c s)
  | cons p ps => exact ⟨p, ps, rfl⟩

theorem csplits_head (x : Char) (s : Str) (h1 : x ≠ ',') (h2 : x ≠ ' ') :
    ∃ w ws, csplits (x :: s) = (x :: w) :: ws := by
  unfold csplits
  have e : replaceChar ' ' [','] (x :: s) = x :: replaceChar ' ' [','] s := by
    simp [replaceChar, h2]
  rw [e]
  have : collapseCommas (x :: replaceChar ' ' [','] s) = x :: collapseCommas (replaceChar ' ' [','] s) := by
    simp [collapseCommas, h1]
  rw [this]
  exact splitOn_head _ _ _ h1

/-! ### merging quoted values -/

theorem mergeTail_spec (m : Str) (init : List Str) (last : Str) (more : List Str)
    (hm : m ≠ []) (hmq : m.getLast? ≠ some '"')
    (hi : ∀ w ∈ init, w ≠ [] ∧ w.getLast? ≠ some '"')
    (hl : last.getLast? = some '"') :
    mergeTail m (init ++ last :: more) = .ok (m ++ ' ' :: joinWith [' '] (init ++ [last]), more) := by
  induction init generalizing m with
  | nil =>
    simp only [List.nil_append, mergeTail, hmq, if_false, joinWith]
    have h2 : (m ++ ' ' :: last).getLast? = some '"' := by
      rw [List.getLast?_append, List.getLast?_cons, hl]; rfl
    cases more with
    | nil => simp [mergeTail, h2]
    | cons a b => simp [mergeTail, h2]
  | cons w init ih =>
    have hw := hi w (by simp)
    simp only [List.cons_append, mergeTail, hmq, if_false]
    have h2 : (m ++ ' ' :: w).getLast? ≠ some '"' := by
      rw [List.getLast?_append, List.getLast?_cons]
      cases hwl : w.getLast? with
      | none => simp at hwl; exact absurd hwl hw.1
      | some x => simp; intro e; apply hw.2; rw [hwl, e]
    rw [ih _ (by simp) h2 (fun w hw => hi w (by simp [hw]))]
    rw [joinWith_cons _ w _ (by simp)]
    simp

theorem mergeValue_spec (t : Str) (ws more : List Str) (h : TextOK t ws) :
    mergeValue (ws ++ more) = .ok (t, more) := by
  rcases h.shape with ⟨hq, _, w, rfl⟩ | ⟨hq, init, last, rfl, hl, hi⟩
  · have e : t = w := by simpa [joinWith] using h.eq
    subst e
    simp [mergeValue, hq]
  · cases init with
    | nil =>
      have e : t = last := by simpa [joinWith] using h.eq
      subst e
      simp only [List.nil_append, List.singleton_append, mergeValue, hq, if_true]
      cases more with
      | nil => simp [mergeTail, hl]
      | cons a b => simp [mergeTail, hl]
    | cons w init =>
      have hw := h.word w (by simp)
      have hh : w.head? = some '"' := by
        have := h.eq
        rw [this, List.cons_append, joinWith_head? _ _ _ hw.1] at hq
        exact hq
      simp only [List.cons_append, List.append_assoc, mergeValue, hh, if_true, List.nil_append]
      rw [mergeTail_spec w init last more hw.1 (hi w (by simp))
        (fun v hv => ⟨(h.word v (by simp [hv])).1, hi v (by simp [hv])⟩) hl]
      rw [h.eq, List.cons_append, joinWith_cons _ w _ (by simp)]
      simp

theorem findLabel_spec (P : PyFloat) (lab : Str) (rest : List Str) (h : LabelOK P lab) :
    findLabel P (lab :: rest) = some (lab, rest) := by
  cases rest with
  | nil => simp [findLabel, h.bang, strIsFloat, h.float]
  | cons a b => simp [findLabel, h.bang, strIsFloat, h.float]

theorem strIsBool_quote (s : Str) : strIsBool ('"' :: s) = false := by
  simp [strIsBool, lower]

theorem startsWith_append (t u p : Str) (h : startsWith t p = false) (hl : p.length ≤ t.length ∨ ¬ startsWith (t ++ u) p = true) :
    startsWith (t ++ u) p = false := by
  rcases hl with hl | hl
  · unfold startsWith at *
    rw [Bool.eq_false_iff] at *
    intro hp
    apply h
    rw [List.isPrefixOf_iff_prefix] at *
    exact List.prefix_of_prefix_length_le hp (List.prefix_append _ _) hl
  · simpa using hl

theorem isComment_append (t u : Str) (hne : t ≠ []) (h : isCommentText t = false) :
    isCommentText (t ++ ' ' :: u) = false := by
  unfold isCommentText at *
  simp only [Bool.or_eq_false_iff] at h ⊢
  obtain ⟨⟨⟨⟨h1, h2⟩, h3⟩, h4⟩, _⟩ := h
  cases t with
  | nil => exact absurd rfl hne
  | cons x t =>
    cases t with
    | nil =>
      simp [startsWith, List.isPrefixOf] at h1 h2 ⊢
      exact ⟨h1, h2⟩
    | cons y t =>
      simp [startsWith, List.isPrefixOf] at h1 h2 h3 h4 ⊢
      exact ⟨⟨⟨h1, h2⟩, h3⟩, h4⟩

theorem joinWith_cons_head (w : Str) (ws : List Str) (h : ws ≠ []) :
    joinWith [' '] (w :: ws) = w ++ ' ' :: joinWith [' '] ws := by
  rw [joinWith_cons _ _ _ h]; simp

/-- `takeList` on a line that is not a list gives at most one value. -/
theorem takeList_scalar (P : PyFloat) (hP : P.Lawful) (t : Str) (ws : List Str) (lab : Str) (rest : List Str)
    (ht : TextOK t ws) (hl : LabelOK P lab) :
    ∃ vs ts, takeList P (csplits (joinWith [' '] (ws ++ lab :: rest))) = .ok (vs, ts) ∧ vs.length < 2 := by
  rcases ht.shape with ⟨hq, hcm, w, rfl⟩ | ⟨hq, init, last, hws, hlq, hi⟩
  · have e : t = w := by simpa [joinWith] using ht.eq
    subst e
    have hw := ht.word t (by simp)
    rw [List.singleton_append, joinWith_cons_head _ _ (by simp)]
    have hhead : (joinWith [' '] (lab :: rest)).head? = lab.head? := joinWith_head? _ _ _ hl.word.1
    rw [csplits_space t _ hcm hw.space (by
        rw [hhead]; intro e; exact hl.comma (List.mem_of_head? e)) (by
        rw [hhead]; intro e; exact hl.word.space (List.mem_of_head? e))]
    have e2 : ∃ r, csplits (joinWith [' '] (lab :: rest)) = lab :: r := by
      cases rest with
      | nil => exact ⟨[], by simpa [joinWith] using csplits_single lab hl.comma hl.word.space⟩
      | cons a b =>
        rw [joinWith_cons_head _ _ (by simp)]
        -- the label is followed by a separator, whatever comes next
        unfold csplits
        have e : replaceChar ' ' [','] (lab ++ ' ' :: joinWith [' '] (a :: b))
            = lab ++ ',' :: replaceChar ' ' [','] (joinWith [' '] (a :: b)) := by
          rw [replaceChar_append, replaceChar_none _ _ _ hl.word.space]; rfl
        rw [e, collapse_word _ _ hl.comma]
        have : ∀ u, ∃ v, collapseCommas (',' :: u) = ',' :: v := by
          intro u
          induction u with
          | nil => exact ⟨[], by simp [collapseCommas]⟩
          | cons d u ih =>
            by_cases hd : d = ','
            · subst hd; rw [collapse_two]; exact ih
            · exact ⟨_, collapse_comma _ (by simp [hd])⟩
        obtain ⟨v, hv⟩ := this (replaceChar ' ' [','] (joinWith [' '] (a :: b)))
        rw [hv, splitOn_append _ _ _ hl.comma]
        exact ⟨_, rfl⟩
    obtain ⟨r, hr⟩ := e2
    rw [hr]
    have hstop : takeList P (lab :: r) = .ok ([], []) := by
      simp [takeList, strIsFloat, hl.float, hl.bool]
    by_cases hv : (strIsFloat P t || strIsBool t) = true
    · refine ⟨[listItem P t], [t], ?_, by simp⟩
      rw [takeList, if_pos hv, hstop]
    · exact ⟨[], [], by rw [takeList, if_neg hv], by simp⟩
  · obtain ⟨s, hs⟩ : ∃ s, joinWith [' '] (ws ++ lab :: rest) = '"' :: s := by
      rw [joinWith_append _ _ _ ht.ne (by simp), ← ht.eq]
      cases ht2 : t with
      | nil => rw [ht2] at hq; simp at hq
      | cons x t => rw [ht2] at hq; simp at hq; subst hq; exact ⟨_, rfl⟩
    rw [hs]
    obtain ⟨w, ws', hw⟩ := csplits_head '"' s (by decide) (by decide)
    rw [hw]
    refine ⟨[], [], ?_, by simp⟩
    simp [takeList, strIsFloat, hP.parse_quote, strIsBool_quote]

/-- reading a scalar line, from its words. -/
theorem parse_scalar (P : PyFloat) (hP : P.Lawful) (allow : Bool) (raw t : Str) (ws : List Str) (lab : Str)
    (rest : List Str) (v : Val P.F)
    (hraw : words raw = ws ++ lab :: rest) (ht : TextOK t ws) (hl : LabelOK P lab)
    (hv : scalarOf P allow t (lab :: rest) = v)
    (hend : startsWith (lower t) "end".toList = true → lab ≠ "of".toList) :
    parseLine P allow raw = .ok ⟨lab, .scalar v, false, joinWith [' '] rest, 0⟩ := by
  have hw : ∀ w ∈ ws ++ lab :: rest, IsWord w := by rw [← hraw]; exact words_isWord raw
  have hline : cleanLine raw = joinWith [' '] (ws ++ lab :: rest) := by rw [cleanLine_eq, hraw]
  have hline2 : cleanLine raw = t ++ ' ' :: joinWith [' '] (lab :: rest) := by
    rw [hline, joinWith_append _ _ _ ht.ne (by simp), ← ht.eq]; simp
  have htne : t ≠ [] := by
    intro e
    have := ht.notComment
    rw [e] at this
    simp [isCommentText] at this
  have hnc : isCommentText (cleanLine raw) = false := by
    rw [hline2]; exact isComment_append t _ htne ht.notComment
  obtain ⟨vs, ts, hts, hlen⟩ := takeList_scalar P hP t ws lab rest ht hl
  have hlst : ∃ vs ts, listPart P (cleanLine raw) = .ok (vs, ts) ∧ vs.length < 2 := by
    unfold listPart
    split
    · split
      · rw [hline]; exact ⟨vs, ts, hts, hlen⟩
      · exact ⟨[], [], rfl, by simp⟩
    · exact ⟨[], [], rfl, by simp⟩
  obtain ⟨vs, ts, hlst, hlen⟩ := hlst
  have hsplit : splitOn ' ' (cleanLine raw) = ws ++ lab :: rest := by
    rw [hline]; exact splitOn_join _ _ (by simp) (fun w h => (hw w h).space)
  have hE : isEndOf (cleanLine raw) = false := by
    unfold isEndOf
    rw [Bool.eq_false_iff]
    intro h
    simp only [Bool.and_eq_true, beq_iff_eq] at h
    obtain ⟨h1, _, h3⟩ := h
    rw [hline, words_join _ hw] at h3
    rcases ht.shape with ⟨hq, hcm, w, rfl⟩ | ⟨hq, _⟩
    · simp at h3
      have : startsWith (lower t) "end".toList = true := by
        have e : t = w := by simpa [joinWith] using ht.eq
        -- 'end' has no blank
        rw [hline2] at h1
        cases hb : startsWith (lower t) "end".toList with
        | true => rfl
        | false =>
          exfalso
          have hl' : lower (t ++ ' ' :: joinWith [' '] (lab :: rest)) = lower t ++ ' ' :: lower (joinWith [' '] (lab :: rest)) := by
            simp [lower]
          rw [hl'] at h1
          generalize lower (joinWith [' '] (lab :: rest)) = U at h1
          generalize lower t = T at h1 hb
          match T with
          | [] => simp [startsWith] at h1
          | [a] => simp [startsWith] at h1
          | [a, b] => simp [startsWith] at h1
          | a :: b :: c :: T =>
            simp [startsWith, List.isPrefixOf] at h1 hb
            exact hb h1.1 h1.2.1 h1.2.2
      exact hend this h3
    · rw [hline2] at h1
      cases ht2 : t with
      | nil => exact htne ht2
      | cons x t =>
        rw [ht2] at hq
        simp at hq
        subst hq
        rw [ht2] at h1
        simp [lower, startsWith] at h1
  unfold parseLine
  simp only [hnc]
  rw [if_neg (by simp), hlst]
  simp only [valueAndSplits]
  rw [if_neg (by omega), hsplit, mergeValue_spec t ws _ ht]
  simp only
  rw [findLabel_spec P lab rest hl]
  simp only [hE, hv, strip_word hl.word]

/-! ### written scalar lines -/

theorem words_pad13 (s : Str) : words (pad13 s) = words s := by
  unfold pad13
  apply words_append_allWs
  intro c hc
  rw [List.eq_of_mem_replicate hc]; exact isWs_space

theorem words_vld (P : PyFloat) (v : Val P.F) (lab descr : Str) :
    words (strip (toStringVLD P v lab descr))
      = words (showVal P v) ++ words lab ++ "-".toList :: words (descrText descr) := by
  rw [words_strip]
  have e : toStringVLD P v lab descr = pad13 (showVal P v) ++ ' ' :: (pad13 lab ++ ' ' ::
      ("-".toList ++ ' ' :: (descrText descr ++ ['\n']))) := by
    simp [toStringVLD]
  rw [e, words_append _ _ _ isWs_space, words_append _ _ _ isWs_space,
    words_word_cons (w := "-".toList) ⟨by simp, by decide⟩ _ _ isWs_space,
    words_append_ws _ '\n' (by decide), words_pad13, words_pad13]
  simp

/-! ### written lists -/

/-- `t1,` `t2,` … `tn` -/
def commaWords : List Str → List Str
  | [] => []
  | [t] => [t]
  | t :: ts => (t ++ [',']) :: commaWords ts

theorem commaWords_cons (t : Str) (ts : List Str) (h : ts ≠ []) :
    commaWords (t :: ts) = (t ++ [',']) :: commaWords ts := by
  cases ts with
  | nil => exact absurd rfl h
  | cons a b => rfl

theorem commaWords_ne (ts : List Str) (h : ts ≠ []) : commaWords ts ≠ [] := by
  cases ts with
  | nil => exact absurd rfl h
  | cons a b => cases b <;> simp [commaWords]

theorem words_commaJoin (ts : List Str) (u : Str) (hne : ts ≠ []) (h : ∀ t ∈ ts, IsWord t) :
    words (joinWith ", ".toList ts ++ ' ' :: u) = commaWords ts ++ words u := by
  induction ts with
  | nil => exact absurd rfl hne
  | cons t ts ih =>
    have ht := h t (by simp)
    by_cases hn : ts = []
    · subst hn
      simp only [joinWith, commaWords]
      rw [words_word_cons ht _ _ isWs_space]; rfl
    · rw [joinWith_cons _ _ _ hn, commaWords_cons _ _ hn]
      have e : t ++ ", ".toList ++ joinWith ", ".toList ts ++ ' ' :: u
          = (t ++ [',']) ++ ' ' :: (joinWith ", ".toList ts ++ ' ' :: u) := by simp
      rw [e, words_word_cons (w := t ++ [',']) ⟨by simp, ?_⟩ _ _ isWs_space,
        ih hn (fun t ht => h t (by simp [ht]))]
      · rfl
      · intro c hc
        rcases List.mem_append.1 hc with hc | hc
        · exact ht.2 c hc
        · simp at hc; subst hc; decide

theorem join_commaWords (ts rest : List Str) (hne : ts ≠ []) (hr : rest ≠ []) :
    joinWith [' '] (commaWords ts ++ rest) = joinWith ", ".toList ts ++ ' ' :: joinWith [' '] rest := by
  induction ts with
  | nil => exact absurd rfl hne
  | cons t ts ih =>
    by_cases hn : ts = []
    · subst hn
      simp only [commaWords, List.singleton_append]
      rw [joinWith_cons _ _ _ hr]; simp [joinWith]
    · rw [commaWords_cons _ _ hn, List.cons_append, joinWith_cons_head _ _ (by simp [commaWords_ne _ hn]),
        ih hn, joinWith_cons _ _ _ hn]
      simp

/-- a text read as one list item (spec side). -/
structure ItemOK (P : PyFloat) (t : Str) : Prop where
  word : IsWord t
  comma : ',' ∉ t
  item : (strIsFloat P t || strIsBool t) = true

theorem csplits_label (lab : Str) (rest : List Str) (hc : ',' ∉ lab) (hs : ' ' ∉ lab) :
    ∃ r, csplits (joinWith [' '] (lab :: rest)) = lab :: r := by
  cases rest with
  | nil => exact ⟨[], by simpa [joinWith] using csplits_single lab hc hs⟩
  | cons a b =>
    rw [joinWith_cons_head _ _ (by simp)]
    unfold csplits
    have e : replaceChar ' ' [','] (lab ++ ' ' :: joinWith [' '] (a :: b))
        = lab ++ ',' :: replaceChar ' ' [','] (joinWith [' '] (a :: b)) := by
      rw [replaceChar_append, replaceChar_none _ _ _ hs]; rfl
    rw [e, collapse_word _ _ hc]
    have : ∀ u, ∃ v, collapseCommas (',' :: u) = ',' :: v := by
      intro u
      induction u with
      | nil => exact ⟨[], by simp [collapseCommas]⟩
      | cons d u ih =>
        by_cases hd : d = ','
        · subst hd; rw [collapse_two]; exact ih
        · exact ⟨_, collapse_comma _ (by simp [hd])⟩
    obtain ⟨v, hv⟩ := this (replaceChar ' ' [','] (joinWith [' '] (a :: b)))
    rw [hv, splitOn_append _ _ _ hc]
    exact ⟨_, rfl⟩

theorem head_notin (t : Str) (c : Char) (h : c ∉ t) : t.head? ≠ some c :=
  fun e => h (List.mem_of_head? e)

theorem csplits_list (P : PyFloat) (ts : List Str) (u : Str) (hne : ts ≠ []) (h : ∀ t ∈ ts, ItemOK P t)
    (h1 : u.head? ≠ some ',') (h2 : u.head? ≠ some ' ') :
    csplits (joinWith ", ".toList ts ++ ' ' :: u) = ts ++ csplits u := by
  induction ts with
  | nil => exact absurd rfl hne
  | cons t ts ih =>
    have ht := h t (by simp)
    by_cases hn : ts = []
    · subst hn
      simp only [joinWith, List.singleton_append]
      exact csplits_space t u ht.comma ht.word.space h1 h2
    · rw [joinWith_cons _ _ _ hn]
      have e : t ++ ", ".toList ++ joinWith ", ".toList ts ++ ' ' :: u
          = t ++ ',' :: ' ' :: (joinWith ", ".toList ts ++ ' ' :: u) := by simp
      obtain ⟨a, b, rfl⟩ := List.exists_cons_of_ne_nil hn
      have ha := h a (by simp)
      have hhead : (joinWith ", ".toList (a :: b) ++ ' ' :: u).head? = a.head? := by
        have := joinWith_head? ", ".toList a b ha.word.1
        cases ha2 : a with
        | nil => exact absurd ha2 ha.word.1
        | cons x a =>
          rw [ha2] at this
          rw [List.head?_append, this]; rfl
      rw [e, csplits_commaspace t _ ht.comma ht.word.space
        (by rw [hhead]; exact head_notin _ _ ha.comma) (by rw [hhead]; exact head_notin _ _ ha.word.space),
        ih hn (fun t ht => h t (by simp [ht]))]
      rfl

theorem takeList_list (P : PyFloat) (ts : List Str) (lab : Str) (r : List Str) (h : ∀ t ∈ ts, ItemOK P t)
    (hl : LabelOK P lab) : takeList P (ts ++ lab :: r) = .ok (ts.map (listItem P), ts) := by
  induction ts with
  | nil => simp [takeList, strIsFloat, hl.float, hl.bool]
  | cons t ts ih =>
    have ht := h t (by simp)
    rw [List.cons_append, takeList, if_pos ht.item, ih (fun t ht => h t (by simp [ht]))]
    rfl

theorem isPrefixOf_self_append (t s : Str) : t.isPrefixOf (t ++ s) = true := by
  rw [List.isPrefixOf_iff_prefix]; exact List.prefix_append _ _

theorem find_self (t s : Str) (h : t ≠ []) : find t (t ++ s) = some 0 := by
  cases t with
  | nil => exact absurd rfl h
  | cons x t =>
    have := isPrefixOf_self_append (x :: t) s
    rw [List.cons_append] at this ⊢
    rw [find, if_pos this]

theorem find_skip (t : Str) (c : Char) (s : Str) (h : t ≠ []) (hc : c ∉ t) :
    find t (c :: s) = (find t s).map (· + 1) := by
  rw [find, if_neg]
  cases t with
  | nil => exact absurd rfl h
  | cons x t =>
    simp at hc
    simp [List.isPrefixOf, Ne.symm hc.1]

theorem eat_one (t s : Str) (h : t ≠ []) : eatOne (t ++ s) t = s := by
  simp [eatOne, find_self t s h]

theorem eat_two (t s : Str) (h : t ≠ []) (hc : ',' ∉ t) (hs : ' ' ∉ t) :
    eatOne (',' :: ' ' :: (t ++ s)) t = s := by
  unfold eatOne
  rw [find_skip _ _ _ h hc, find_skip _ _ _ h hs, find_self t s h]
  simp only [Option.map_some]
  have : 0 + 1 + 1 + t.length = t.length + 2 := by omega
  rw [this]
  simp

theorem eat_tail (P : PyFloat) (ts : List Str) (u : Str) (h : ∀ t ∈ ts, ItemOK P t) :
    ts.foldl eatOne (ts.flatMap (fun t => ',' :: ' ' :: t) ++ u) = u := by
  induction ts with
  | nil => rfl
  | cons t ts ih =>
    have ht := h t (by simp)
    simp only [List.flatMap_cons, List.foldl_cons, List.cons_append, List.append_assoc]
    rw [eat_two t _ ht.word.1 ht.comma ht.word.space]
    exact ih (fun t ht => h t (by simp [ht]))

theorem join_eq_flatMap (t : Str) (ts : List Str) :
    joinWith ", ".toList (t :: ts) = t ++ ts.flatMap (fun t => ',' :: ' ' :: t) := by
  induction ts generalizing t with
  | nil => simp [joinWith]
  | cons a b ih => rw [joinWith_cons _ _ _ (by simp), ih]; simp

theorem eat_list (P : PyFloat) (ts : List Str) (u : Str) (hne : ts ≠ []) (h : ∀ t ∈ ts, ItemOK P t) :
    ts.foldl eatOne (joinWith ", ".toList ts ++ u) = u := by
  cases ts with
  | nil => exact absurd rfl hne
  | cons t ts =>
    have ht := h t (by simp)
    rw [join_eq_flatMap, List.foldl_cons, List.append_assoc, eat_one t _ ht.word.1]
    exact eat_tail P ts u (fun t ht => h t (by simp [ht]))

theorem find_comma (t s : Str) (h : ',' ∉ t) : find [','] (t ++ ',' :: s) = some t.length := by
  induction t with
  | nil => simp [find, List.isPrefixOf]
  | cons x t ih =>
    simp at h
    rw [List.cons_append, find, if_neg (by simp [List.isPrefixOf, h.1]), ih h.2]
    rfl

theorem isComment_congr_head (t u : Str) (h : t.length ≥ 2) (hc : isCommentText t = false) :
    isCommentText (t ++ u) = false := by
  unfold isCommentText at *
  match t with
  | x :: y :: t =>
    simp [startsWith, List.isPrefixOf] at hc ⊢
    exact hc

/-- reading a list line. -/
theorem parse_list (P : PyFloat) (allow : Bool) (raw : Str) (ts : List Str) (lab : Str) (rest : List Str)
    (hraw : words raw = commaWords ts ++ lab :: rest) (hlen : 2 ≤ ts.length)
    (h : ∀ t ∈ ts, ItemOK P t) (hl : LabelOK P lab)
    (hfirst : ∀ t, ts.head? = some t → t.length < 30 ∧ isCommentText t = false)
    (hend : ∀ t, ts.head? = some t → t.head? ≠ some 'e' ∧ t.head? ≠ some 'E') :
    parseLine P allow raw = .ok ⟨lab, .list (ts.map (listItem P)), false, joinWith [' '] rest, 0⟩ := by
  have hne : ts ≠ [] := by intro e; simp [e] at hlen
  have hline : cleanLine raw = joinWith ", ".toList ts ++ ' ' :: joinWith [' '] (lab :: rest) := by
    rw [cleanLine_eq, hraw, join_commaWords _ _ hne (by simp)]
  obtain ⟨t0, t1, tr, rfl⟩ : ∃ t0 t1 tr, ts = t0 :: t1 :: tr := by
    match ts, hlen with
    | a :: b :: c, _ => exact ⟨a, b, c, rfl⟩
  have h0 := h t0 (by simp)
  obtain ⟨hf1, hf2⟩ := hfirst t0 rfl
  have hjoin : ∃ s, joinWith ", ".toList (t0 :: t1 :: tr) ++ ' ' :: joinWith [' '] (lab :: rest) = t0 ++ ',' :: ' ' :: s := by
    rw [joinWith_cons _ _ _ (by simp)]
    exact ⟨joinWith ", ".toList (t1 :: tr) ++ ' ' :: joinWith [' '] (lab :: rest), by simp⟩
  obtain ⟨s, hs⟩ := hjoin
  obtain ⟨x, t0', ht0⟩ : ∃ x t0', t0 = x :: t0' := List.exists_cons_of_ne_nil h0.word.1
  have hnc : isCommentText (cleanLine raw) = false := by
    rw [hline, hs]
    unfold isCommentText at *
    subst ht0
    cases t0' with
    | nil => simp [startsWith, List.isPrefixOf] at hf2 ⊢; exact hf2
    | cons y t0' => simp [startsWith, List.isPrefixOf] at hf2 ⊢; exact hf2
  have hE : isEndOf (cleanLine raw) = false := by
    unfold isEndOf
    rw [Bool.eq_false_iff]
    intro hh
    simp only [Bool.and_eq_true] at hh
    obtain ⟨h1, _⟩ := hh
    rw [hline, hs] at h1
    obtain ⟨he, hE⟩ := hend t0 rfl
    subst ht0
    simp [lower, startsWith, List.isPrefixOf] at h1 he hE
    have := h1.1
    have hx : x = 'e' ∨ x = 'E' := by
      unfold Char.toLower at this
      split at this
      · next hcond =>
        right
        have h3 := congrArg Char.toNat this
        apply Char.ext
        apply UInt32.toNat_inj.1
        have h4 : ('e' : Char).toNat = 101 := rfl
        rw [h4] at h3
        have hb : x.val.toNat ≤ 90 := by
          have := hcond.2
          exact this
        have ha : 65 ≤ x.val.toNat := hcond.1
        have h5 : (x.val + ('a'.val - 'A'.val)).toNat = 101 := h3.symm
        rw [UInt32.toNat_add] at h5
        have h6 : ('a'.val - 'A'.val).toNat = 32 := by decide
        rw [h6] at h5
        have h7 : ('E' : Char).val.toNat = 69 := rfl
        omega
      · exact Or.inl this.symm
    rcases hx with rfl | rfl
    · exact he rfl
    · exact hE rfl
  have hlab : (joinWith [' '] (lab :: rest)).head? = lab.head? := joinWith_head? _ _ _ hl.word.1
  obtain ⟨r, hr⟩ := csplits_label lab rest hl.comma hl.word.space
  have hlp : listPart P (cleanLine raw) = .ok ((t0 :: t1 :: tr).map (listItem P), t0 :: t1 :: tr) := by
    unfold listPart
    have : find [','] (cleanLine raw) = some t0.length := by rw [hline, hs]; exact find_comma _ _ h0.comma
    rw [this]
    simp only
    rw [if_pos ⟨by subst ht0; simp, hf1⟩, hline,
      csplits_list P _ _ (by simp) h (by rw [hlab]; exact head_notin _ _ hl.comma)
        (by rw [hlab]; exact head_notin _ _ hl.word.space), hr, takeList_list P _ _ _ h hl]
  unfold parseLine
  simp only [hnc]
  rw [if_neg (by simp), hlp]
  simp only [valueAndSplits]
  rw [if_pos (by simp), hline, eat_list P _ _ (by simp) h, words_cons_ws _ _ isWs_space,
    words_join _ (by
      intro w hw
      have := words_isWord raw
      rw [hraw] at this
      exact this w (by simp at hw ⊢; exact Or.inr hw))]
  simp only
  rw [findLabel_spec P lab rest hl]
  rw [hline] at hE
  simp only [hE, strip_word hl.word]

/-! ### texts of values -/

theorem toDigits_digit (n : Nat) : ∀ c ∈ Nat.toDigits 10 n, c.isDigit = true :=
  fun _ hc => Nat.isDigit_of_mem_toDigits (by decide) (by decide) hc

theorem digit_facts (c : Char) (h : c.isDigit = true) :
    isWs c = false ∧ c ≠ ',' ∧ c ≠ '"' ∧ c ≠ '-' ∧ c ≠ '+' ∧ c ≠ '#' ∧ c ≠ '!' ∧ c ≠ '=' ∧ c ≠ 'e' ∧ c ≠ 'E' := by
  have h1 : 48 ≤ c.toNat ∧ c.toNat ≤ 57 := by
    simp only [Char.isDigit, Bool.and_eq_true, decide_eq_true_eq] at h
    exact ⟨h.1, h.2⟩
  obtain ⟨h1, h2⟩ := h1
  refine ⟨?_, ?_⟩
  · unfold isWs
    simp only [Bool.or_eq_false_iff, Bool.and_eq_false_iff, decide_eq_false_iff_not, beq_eq_false_iff_ne]
    omega
  · refine ⟨?_, ?_, ?_, ?_, ?_, ?_, ?_, ?_, ?_⟩ <;> (rintro rfl; revert h1 h2; decide)

theorem isDigits_toDigits (n : Nat) : isDigits (Nat.toDigits 10 n) = true := by
  unfold isDigits
  have h : Nat.toDigits 10 n ≠ [] := Nat.toDigits_ne_nil
  cases h2 : Nat.toDigits 10 n with
  | nil => exact absurd h2 h
  | cons c r =>
    rw [← h2]
    have : (Nat.toDigits 10 n).all Char.isDigit = true := List.all_eq_true.2 (toDigits_digit n)
    simp [this, h]

theorem toDigits_cons (n : Nat) : ∃ c r, Nat.toDigits 10 n = c :: r ∧ c.isDigit = true := by
  obtain ⟨c, r, h⟩ := List.exists_cons_of_ne_nil (Nat.toDigits_ne_nil (b := 10) (n := n))
  exact ⟨c, r, h, toDigits_digit n c (by rw [h]; simp)⟩

theorem strIsInt_showInt (n : Int) : strIsInt (showInt n) = true := by
  cases n with
  | ofNat n =>
    obtain ⟨c, r, h, hd⟩ := toDigits_cons n
    have := isDigits_toDigits n
    have hf := digit_facts c hd
    simp only [showInt]
    rw [h] at this ⊢
    simp [strIsInt, hf.2.2.2.1, hf.2.2.2.2.1, this]
  | negSucc n =>
    simp [showInt, strIsInt, isDigits_toDigits]

theorem pyInt_showInt (n : Int) : pyInt (showInt n) = n := by
  cases n with
  | ofNat n =>
    obtain ⟨c, r, h, hd⟩ := toDigits_cons n
    have hf := digit_facts c hd
    have hv : Nat.ofDigitChars 10 (Nat.toDigits 10 n) 0 = n :=
      Nat.ofDigitChars_toDigits (by decide) (by decide)
    simp only [showInt]
    rw [h] at hv ⊢
    simp [pyInt, hf.2.2.2.1, hf.2.2.2.2.1, hv]
  | negSucc n =>
    have hv : Nat.ofDigitChars 10 (Nat.toDigits 10 (n + 1)) 0 = n + 1 :=
      Nat.ofDigitChars_toDigits (by decide) (by decide)
    simp only [showInt, pyInt, if_true, hv]
    rfl

/-- facts on the text of a number or logical. -/
structure NumText (t : Str) : Prop where
  word : IsWord t
  comma : ',' ∉ t
  notComment : isCommentText t = false
  noQuote : t.head? ≠ some '"'
  noE : t.head? ≠ some 'e' ∧ t.head? ≠ some 'E'

theorem numText_cons (c : Char) (r : Str)
    (hw : IsWord (c :: r)) (hc : ',' ∉ c :: r)
    (h : c.isDigit = true ∨ c = 'i' ∨ c = 'n' ∨ c = 'T' ∨ c = 'F' ∨ (c = '-' ∧ r.head? ≠ some '-')) :
    NumText (c :: r) := by
  have key : c ≠ '#' ∧ c ≠ '!' ∧ c ≠ '=' ∧ c ≠ '"' ∧ c ≠ 'e' ∧ c ≠ 'E' := by
    rcases h with h | h | h | h | h | h
    · have hf := digit_facts c h
      obtain ⟨_, _, h1, _, _, h2, h3, h4, h5, h6⟩ := hf
      exact ⟨h2, h3, h4, h1, h5, h6⟩
    · subst h; decide
    · subst h; decide
    · subst h; decide
    · subst h; decide
    · obtain ⟨h, _⟩ := h; subst h; decide
  have hdash : ¬ (c = '-' ∧ r.head? = some '-') := by
    rcases h with h | h | h | h | h | h
    · intro e; have hf := digit_facts c h; exact hf.2.2.2.1 e.1
    · subst h; intro e; exact absurd e.1 (by decide)
    · subst h; intro e; exact absurd e.1 (by decide)
    · subst h; intro e; exact absurd e.1 (by decide)
    · subst h; intro e; exact absurd e.1 (by decide)
    · intro e; exact h.2 e.2
  obtain ⟨k1, k2, k3, k4, k5, k6⟩ := key
  refine ⟨hw, hc, ?_, by simp [k4], by simp [k5], by simp [k6]⟩
  unfold isCommentText
  cases r with
  | nil => simp [startsWith, List.isPrefixOf, Ne.symm k1, Ne.symm k2]
  | cons d r =>
    simp [startsWith, List.isPrefixOf, Ne.symm k1, Ne.symm k2, Ne.symm k3]
    intro h1 h2
    exact hdash ⟨h1.symm, by simp [h2.symm]⟩

theorem numText_showInt (n : Int) : NumText (showInt n) := by
  cases n with
  | ofNat n =>
    obtain ⟨c, r, h, hd⟩ := toDigits_cons n
    have hall := toDigits_digit n
    simp only [showInt]
    rw [h] at hall ⊢
    exact numText_cons c r ⟨by simp, fun c hc => (digit_facts c (hall c hc)).1⟩
      (fun hc => (digit_facts _ (hall _ hc)).2.1 rfl) (Or.inl hd)
  | negSucc n =>
    obtain ⟨c, r, h, hd⟩ := toDigits_cons (n + 1)
    have hall := toDigits_digit (n + 1)
    simp only [showInt]
    rw [h] at hall ⊢
    refine numText_cons '-' (c :: r) ⟨by simp, ?_⟩ ?_ ?_
    · intro x hx
      rcases List.mem_cons.1 hx with rfl | hx
      · decide
      · exact (digit_facts x (hall x hx)).1
    · intro hx
      rcases List.mem_cons.1 hx with hx | hx
      · exact absurd hx (by decide)
      · exact (digit_facts _ (hall _ hx)).2.1 rfl
    · right; right; right; right; right
      exact ⟨rfl, by simp [(digit_facts c hd).2.2.2.1]⟩

theorem numText_repr (P : PyFloat) (hP : P.Lawful) (x : P.F) : NumText (P.repr x) := by
  obtain ⟨c, r, h, hh⟩ := hP.repr_head x
  have h1 := hP.repr_word x
  have h2 := hP.repr_comma x
  rw [h] at h1 h2 ⊢
  refine numText_cons c r h1 h2 ?_
  rcases hh with h | h | h | h
  · exact Or.inl h
  · exact Or.inr (Or.inl h)
  · exact Or.inr (Or.inr (Or.inl h))
  · exact Or.inr (Or.inr (Or.inr (Or.inr (Or.inr h))))

theorem numText_bool (b : Bool) (P : PyFloat) : NumText (showVal P (.bool b)) := by
  cases b
  · exact numText_cons 'F' "alse".toList ⟨by simp, by decide⟩ (by decide) (by simp)
  · exact numText_cons 'T' "rue".toList ⟨by simp, by decide⟩ (by decide) (by simp)

theorem numText_show (P : PyFloat) (hP : P.Lawful) (v : Val P.F) (h : IsNum v) : NumText (showVal P v) := by
  cases v with
  | int n => exact numText_showInt n
  | flt x => exact numText_repr P hP x
  | bool b => exact numText_bool b P
  | str s => exact absurd h (by simp [IsNum])

theorem NumText.textOK {t : Str} (h : NumText t) : TextOK t [t] :=
  ⟨by simp [joinWith], by simp, by simpa using h.word, h.notComment, Or.inl ⟨h.noQuote, h.comma, t, rfl⟩⟩

theorem strIsBool_True : strIsBool "True".toList = true := by decide
theorem strIsBool_False : strIsBool "False".toList = true := by decide

theorem scalarOf_num (P : PyFloat) (hP : P.Lawful) (allow : Bool) (v : Val P.F) (h : IsNum v) (lab : Str)
    (rest : List Str) (hl : LabelOK P lab) : scalarOf P allow (showVal P v) (lab :: rest) = v := by
  have hli : strIsInt lab = false := by
    rw [Bool.eq_false_iff]
    intro h
    have := hP.parse_int lab h
    rw [hl.float] at this; simp at this
  cases v with
  | int n => simp [scalarOf, showVal, strIsInt_showInt, pyInt_showInt, hli]
  | flt x => simp [scalarOf, showVal, hP.repr_not_int, hP.parse_repr]
  | bool b =>
    cases b
    · have h1 : strIsInt "False".toList = false := by decide
      have h3 : strToBool "False".toList = false := by decide
      show scalarOf P allow "False".toList _ = _
      unfold scalarOf
      rw [h1, hP.parse_False, strIsBool_False, h3]; rfl
    · have h1 : strIsInt "True".toList = false := by decide
      have h3 : strToBool "True".toList = true := by decide
      show scalarOf P allow "True".toList _ = _
      unfold scalarOf
      rw [h1, hP.parse_True, strIsBool_True, h3]; rfl
  | str s => exact absurd h (by simp [IsNum])

theorem itemOK_show (P : PyFloat) (hP : P.Lawful) (v : Val P.F) (h : IsNum v) : ItemOK P (showVal P v) := by
  have hn := numText_show P hP v h
  refine ⟨hn.word, hn.comma, ?_⟩
  cases v with
  | int n => simp [strIsFloat, showVal, hP.parse_int _ (strIsInt_showInt n)]
  | flt x => simp [strIsFloat, showVal, hP.parse_repr]
  | bool b => cases b <;> simp [showVal] <;> right <;> decide
  | str s => exact absurd h (by simp [IsNum])

theorem listItem_show (P : PyFloat) (hP : P.Lawful) (v : Val P.F) (h : IsNum v) :
    listItem P (showVal P v) = v := by
  cases v with
  | int n => simp [listItem, showVal, strIsInt_showInt, pyInt_showInt]
  | flt x => simp [listItem, showVal, hP.repr_not_int, hP.parse_repr]
  | bool b =>
    cases b
    · have h1 : strIsInt "False".toList = false := by decide
      have h3 : strToBool "False".toList = false := by decide
      show listItem P "False".toList = _
      unfold listItem
      rw [h1, hP.parse_False, h3]; rfl
    · have h1 : strIsInt "True".toList = false := by decide
      have h3 : strToBool "True".toList = true := by decide
      show listItem P "True".toList = _
      unfold listItem
      rw [h1, hP.parse_True, h3]; rfl
  | str s => exact absurd h (by simp [IsNum])

end Verif.FastLine
