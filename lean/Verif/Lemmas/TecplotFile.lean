import Verif.Lemmas.Tecplot
/-! # Lemmas on Tecplot files as people write them -/
namespace Verif.Tecplot
open Verif.Py

/-! ### Lines -/

theorem strip_around (a b t : Str) (ha : ∀ c ∈ a, isWs c = true) (hb : ∀ c ∈ b, isWs c = true) (ht : Trimmed t) :
    strip (a ++ (t ++ b)) = t := by
  obtain ⟨hne, h1, h2⟩ := ht
  have e1 : lstripBy isWs (a ++ (t ++ b)) = t ++ b := by
    rw [lstripBy, List.dropWhile_append_of_pos ha]
    cases t with
    | nil => exact absurd rfl hne
    | cons c t => rw [List.cons_append, List.dropWhile_cons_of_neg (by rw [h1 c rfl]; decide)]
  have e2 : rstripBy isWs (t ++ b) = t := by
    rw [rstripBy, List.reverse_append, List.dropWhile_append_of_pos (fun c hc => hb c (by simpa using hc))]
    cases hr : t.reverse with
    | nil => exact absurd (List.reverse_eq_nil_iff.1 hr) hne
    | cons c u =>
      have : t.getLast? = some c := by
        rw [← List.head?_reverse, hr]; rfl
      rw [List.dropWhile_cons_of_neg (by rw [h2 c this]; decide), ← hr, List.reverse_reverse]
  show rstripBy isWs (lstripBy isWs _) = t
  rw [e1, e2]

theorem strip_shows {ln t : Str} (h : Shows ln t) (ht : Trimmed t) : strip ln = t := by
  obtain ⟨a, b, ha, hb, rfl⟩ := h
  exact strip_around a b t (fun c hc => (ha c hc).1) (fun c hc => (hb c hc).1) ht

theorem strip_trimmed {t : Str} (ht : Trimmed t) : strip t = t := by
  have := strip_around [] [] t (by simp) (by simp) ht
  simpa using this

theorem lower_head? (t : Str) : (lower t).head? = t.head?.map Char.toLower := by
  cases t <;> rfl

theorem toLower_hash (c : Char) (h : c.toLower = '#') : c = '#' := by
  unfold Char.toLower at h
  split at h
  · rename_i hc
    have := congrArg Char.toNat h
    exfalso
    have h1 : ∀ n, n < 91 → 65 ≤ n → (Char.ofNat (n + 32)).toNat ≠ 35 := by decide
    obtain ⟨ha, hb⟩ := hc
    have e : c.toNat = c.val.toNat := rfl
    have ha' : 65 ≤ c.toNat := by
      have := UInt32.le_iff_toNat_le.1 ha; simpa using this
    have hb' : c.toNat < 91 := by
      have := UInt32.le_iff_toNat_le.1 hb; simp at this; rw [e]; omega
    have h2 : (c.val + ('a'.val - 'A'.val)).toNat = 35 := by
      have := congrArg (fun x : Char => x.val.toNat) h
      simpa using this
    rw [UInt32.toNat_add] at h2
    have h3 : ('a'.val - 'A'.val).toNat = 32 := by decide
    rw [h3] at h2
    omega
  · exact h

theorem lower_not_hash {t : Str} (h : t.head? ≠ some '#') : (lower t).head? ≠ some '#' := by
  rw [lower_head?]
  cases ht : t.head? with
  | none => simp
  | some c =>
    intro e
    have e : some c.toLower = some '#' := e
    injection e with e
    rw [toLower_hash c e] at ht
    exact h ht

theorem secOf_kw (s : Sec) (x : Str) : secOf (s.kw ++ x) = some s := by
  cases s <;> rfl

theorem secOf_none {t : Str} (h : ∀ s : Sec, ¬ s.kw <+: t) : secOf t = none := by
  have : keywords.filter (fun k => startsWith t k.kw) = [] := by
    rw [List.filter_eq_nil_iff]
    intro k _ hk
    exact h k (List.isPrefixOf_iff_prefix.1 hk)
  rw [secOf, this]

/-! ### Steps of the loop -/

theorem loop_comment (T : Txt F) (ln t : Str) (h : Shows ln ('#' :: t)) (ht : Trimmed ('#' :: t)) (rest : List Str)
    (cur : Cur) (d : Doc F) : loop T (ln :: rest) cur d = loop T rest cur d := by
  rw [loop.eq_def]
  simp only [strip_shows h ht]
  rw [if_neg (by simp), if_pos (by rw [lower_head?]; rfl)]

theorem kw_length {s : Sect F} {T : Txt F} (h : SectOk T s) : s.kw.length = s.mean.sec.kw.length := by
  rw [← h.kw, lower, List.length_map]

theorem loop_sect (T : Txt F) (s : Sect F) (hs : SectOk T s) (ln : Str) (h : Shows ln (s.kw ++ s.head)) (rest : List Str)
    (cur : Cur) (d d' : Doc F) (hf : flush T cur d = .ok d') :
    loop T (ln :: rest) cur d = loop T rest (some (s.mean.sec, s.kw ++ s.head)) d' := by
  have hl : lower (s.kw ++ s.head) = s.mean.sec.kw ++ lower s.head := by
    rw [← hs.kw]; simp [lower]
  have hh : (s.mean.sec.kw ++ lower s.head).head? ≠ some '#' := by
    generalize s.mean.sec = k
    cases k <;> exact fun e => absurd (Option.some.inj e) (by decide)
  rw [loop.eq_def]
  simp only [strip_shows h hs.trimmed]
  rw [if_neg hs.trimmed.1, hl, if_neg hh, secOf_kw]
  simp only [hf]

theorem loop_cont (T : Txt F) (ln t : Str) (h : Shows ln t) (ht : Continues T t) (rest : List Str)
    (s : Sec) (m : Str) (d : Doc F) (hv : needsVars s = true → d.vars.isSome) :
    loop T (ln :: rest) (some (s, m)) d = loop T rest (some (s, m ++ [' '] ++ t)) d := by
  have hc : (needsVars s && d.vars.isNone) = false := by
    cases hn : needsVars s with
    | false => rfl
    | true => have := hv hn; cases hd : d.vars <;> simp_all
  rw [loop.eq_def]
  simp only [strip_shows h ht.1]
  rw [if_neg ht.1.1, if_neg (lower_not_hash ht.2.1), secOf_none ht.2.2.1]
  simp only [hc, ht.2.2.2, Bool.false_eq_true, if_false]

/-- a continued section before the variables -/
theorem loop_early (T : Txt F) (ln t : Str) (h : Shows ln t) (hne : Trimmed t) (hh : t.head? ≠ some '#')
    (hk : ∀ s : Sec, ¬ s.kw <+: lower t) (rest : List Str)
    (s : Sec) (m : Str) (d : Doc F) (hs : needsVars s = true) (hv : d.vars = none) :
    loop T (ln :: rest) (some (s, m)) d = .error .wrong := by
  rw [loop.eq_def]
  simp only [strip_shows h hne]
  rw [if_neg hne.1, if_neg (lower_not_hash hh), secOf_none hk]
  simp only [hs, hv, Option.isNone_none, Bool.and_self, if_true]

theorem loop_nosection (T : Txt F) (ln t : Str) (h : Shows ln t) (hne : Trimmed t) (hh : t.head? ≠ some '#')
    (hk : ∀ s : Sec, ¬ s.kw <+: lower t) (rest : List Str) (d : Doc F) :
    loop T (ln :: rest) none d = .error .wrong := by
  rw [loop.eq_def]
  simp only [strip_shows h hne]
  rw [if_neg hne.1, if_neg (lower_not_hash hh), secOf_none hk]

theorem wordsAux_lower (acc s : Str) : wordsAux (lower acc) (lower s) = (wordsAux acc s).map lower := by
  induction s generalizing acc with
  | nil => 
    show wordsAux (lower acc) [] = _
    unfold wordsAux
    cases acc <;> simp [lower]
  | cons c s ih =>
    show wordsAux (lower acc) (c.toLower :: lower s) = _
    unfold wordsAux
    rw [isWs_toLower]
    have e0 : (lower acc).isEmpty = acc.isEmpty := by cases acc <;> rfl
    have e1 := ih []
    have e2 := ih (acc ++ [c])
    have e3 : lower (acc ++ [c]) = lower acc ++ [c.toLower] := by simp [lower]
    rw [e3] at e2
    by_cases hw : isWs c
    · have e1' : wordsAux [] (lower s) = (wordsAux [] s).map lower := e1
      cases acc with
      | nil => simp [hw, lower] at e1' ⊢; exact e1'
      | cons a acc => simp [hw, lower] at e1' ⊢; exact e1'
    · simp only [hw]
      exact e2

theorem words_lower (s : Str) : words (lower s) = (words s).map lower := wordsAux_lower [] s

/-- a row begins with a character of numbers -/
theorem rowLine_head {T : Txt F} {r : List F} {t tail : Str} (hr : r ≠ []) (hw : List.Forall₂ (NumWord T) r (words t))
    (htail : tail = [] ∨ ∃ c, tail = ' ' :: '#' :: c) :
    ∃ c, (strip (t ++ tail)).head? = some c ∧ c ∈ "+-.0123456789nNiI".toList := by
  obtain ⟨x, xs, rfl⟩ := List.exists_cons_of_ne_nil hr
  obtain ⟨w, ws, hx, hwords⟩ : ∃ w ws, NumWord T x w ∧ words t = w :: ws := by
    cases hws : words t with
    | nil => rw [hws] at hw; exact nomatch hw
    | cons w ws => rw [hws] at hw; cases hw with | cons h1 _ => exact ⟨w, ws, h1, rfl⟩
  have hwl : ∃ ws', words (strip (t ++ tail)) = w :: ws' := by
    rw [words_strip]
    rcases htail with rfl | ⟨c, rfl⟩
    · rw [List.append_nil]; exact ⟨_, hwords⟩
    · rw [words_append _ _ _ isWs_space, hwords]; exact ⟨_, rfl⟩
  obtain ⟨ws', hwl⟩ := hwl
  obtain ⟨hword, hnh, hdec, hnum, c, hc1, hc2⟩ := hx
  refine ⟨c, ?_, hc2⟩
  have key : ∀ u : Str, (∀ d, u.head? = some d → isWs d = false) → ∀ v vs, words u = v :: vs → u.head? = v.head? := by
    intro u hu v vs hv
    cases u with
    | nil => exact nomatch hv
    | cons a u =>
      have ha := hu a rfl
      have : ∃ b, (wordsAux [a] u).head? = some (a :: b) := by
        have gen : ∀ (u acc : Str), acc ≠ [] → ∃ b, (wordsAux acc u).head? = some (acc ++ b) := by
          intro u
          induction u with
          | nil => intro acc hacc; refine ⟨[], ?_⟩; cases acc with
            | nil => exact absurd rfl hacc
            | cons a acc => simp [wordsAux]
          | cons e u ih =>
            intro acc hacc
            unfold wordsAux
            by_cases he : isWs e = true
            · refine ⟨[], ?_⟩
              cases acc with
              | nil => exact absurd rfl hacc
              | cons a acc => simp [he]
            · obtain ⟨b, hb⟩ := ih (acc ++ [e]) (by simp)
              refine ⟨e :: b, ?_⟩
              simp only [he]
              simpa using hb
        obtain ⟨b, hb⟩ := gen u [a] (by simp)
        exact ⟨b, hb⟩
      obtain ⟨b, hb⟩ := this
      have hv' : words (a :: u) = wordsAux [a] u := by
        unfold words
        conv => lhs; unfold wordsAux
        simp [ha]
      rw [hv'] at hv
      rw [hv] at hb
      injection hb with hb
      rw [hb]; rfl
  rw [key _ ?_ _ _ hwl, hc1]
  intro a ha
  by_contra hcon
  have hcon : isWs a = true := by simpa using hcon
  have e : strip (t ++ tail) = rstripBy isWs (lstripBy isWs (t ++ tail)) := rfl
  obtain ⟨v, hv1, _⟩ := rstripBy_append isWs (lstripBy isWs (t ++ tail))
  rw [← e] at hv1
  have hne : strip (t ++ tail) ≠ [] := by intro h0; rw [h0] at ha; exact nomatch ha
  have h1 : (lstripBy isWs (t ++ tail)).head? = some a := by
    rw [hv1, List.head?_append, ha]; rfl
  have := List.head?_dropWhile_not isWs (t ++ tail)
  rw [lstripBy] at h1
  rw [h1] at this
  simp [hcon] at this

theorem loop_row (T : Txt F) (r : List F) (hr : r ≠ []) (ln : Str) (h : RowLine T r ln) (rest : List Str) (s : Sec) (m : Str)
    (d : Doc F) (hv : needsVars s = true → d.vars.isSome) :
    loop T (ln :: rest) (some (s, m)) d = loadData T (some (s, m)) d (ln :: rest) := by
  obtain ⟨t, tail, rfl, htail, hh, hw⟩ := h
  obtain ⟨x, xs, rfl⟩ := List.exists_cons_of_ne_nil hr
  have hc : (needsVars s && d.vars.isNone) = false := by
    cases hn : needsVars s with
    | false => rfl
    | true => have := hv hn; cases hd : d.vars <;> simp_all
  obtain ⟨w, ws, hx, hwords⟩ : ∃ w ws, NumWord T x w ∧ words t = w :: ws := by
    cases hws : words t with
    | nil => rw [hws] at hw; exact nomatch hw
    | cons w ws => rw [hws] at hw; cases hw with | cons h1 _ => exact ⟨w, ws, h1, rfl⟩
  have hwl : ∃ ws', words (strip (t ++ tail)) = w :: ws' := by
    rw [words_strip]
    rcases htail with rfl | ⟨c, rfl⟩
    · rw [List.append_nil]; exact ⟨_, hwords⟩
    · rw [words_append _ _ _ isWs_space, hwords]; exact ⟨_, rfl⟩
  obtain ⟨ws', hwl⟩ := hwl
  obtain ⟨hword, hnh, hdec, hnum, c, hc1, hc2⟩ := hx
  obtain ⟨c', hhead, hc2'⟩ := rowLine_head hr hw htail
  have hne : strip (t ++ tail) ≠ [] := by intro h0; rw [h0] at hhead; exact nomatch hhead
  have hlh : (lower (strip (t ++ tail))).head? = some c'.toLower := by rw [lower_head?, hhead]; rfl
  have hcl : c'.toLower ∈ "+-.0123456789ni".toList := by
    have : ∀ c ∈ "+-.0123456789nNiI".toList, c.toLower ∈ "+-.0123456789ni".toList := by decide
    exact this c' hc2'
  have hnh' : c'.toLower ≠ '#' := by
    intro e; rw [e] at hcl; exact absurd hcl (by decide)
  rw [loop.eq_def]
  simp only
  rw [if_neg hne, if_neg (by rw [hlh]; intro e; injection e with e; exact hnh' e), secOf_num _ _ hlh hcl]
  simp only [hc, Bool.false_eq_true, if_false]
  rw [if_pos]
  rw [words_lower, hwl]
  exact hnum

/-! ### Names of variables -/

/-- the last part of the treatment of variables -/
def varsTail (line : Str) : List Str :=
  let line := strip (replaceChar '[' ['_', '['] line)
  let line := strip (replaceChar '(' ['_', '('] line)
  let line := strip (collapse '_' line)
  if line.head? = some '"' then
    splitOn ',' (replaceChar '"' [] (joinQ line))
  else words line

theorem procVars_tail (line : Str) :
    procVars line
      = varsTail (strip (collapse ' ' (strip (replaceChar ',' [' '] (strip (replaceChar '=' [] line)))))) := rfl

theorem replicate_trim (k : Nat) (t : Str) (ht : Trimmed t) : strip (List.replicate k ' ' ++ t) = t := by
  rw [strip_replicate, strip_trimmed ht]

/-- the equals sign goes away -/
theorem intro_gone (pre t : Str) (hp : Intro pre) (ht : Trimmed t) (he : '=' ∉ t) :
    strip (replaceChar '=' [] (pre ++ t)) = t := by
  rw [replaceChar_append, replaceChar_none _ _ t he]
  rcases hp with rfl | ⟨k, rfl⟩
  · exact strip_trimmed ht
  · rw [replaceChar_cons, if_pos rfl, List.nil_append, replaceChar_none]
    · exact replicate_trim k t ht
    · intro h; exact absurd (List.mem_replicate.1 h).2 (by decide)

theorem quoted_trimmed {ns : List Str} {t : Str} (h : QuotedNames ns t) :
    Trimmed t ∧ ∃ u, t = '"' :: u := by
  induction h with
  | one n =>
    refine ⟨⟨by simp, ?_, ?_⟩, _, rfl⟩
    · intro c hc; injection hc with hc; rw [← hc]; decide
    · intro c hc
      rw [← List.cons_append, List.getLast?_concat] at hc
      injection hc with hc; rw [← hc]; decide
  | cons n m ns sep t hs ht ih =>
    refine ⟨⟨by simp, ?_, ?_⟩, _, rfl⟩
    · intro c hc; injection hc with hc; rw [← hc]; decide
    · intro c hc
      apply ih.1.2.2 c
      have e : '"' :: (n ++ '"' :: (sep ++ t)) = ('"' :: (n ++ '"' :: sep)) ++ t := by simp
      rw [e, List.getLast?_append_of_ne_nil _ ih.1.1] at hc
      exact hc

theorem quoted_noeq {ns : List Str} {t : Str} (h : QuotedNames ns t) (hn : ∀ n ∈ ns, '=' ∉ n) : '=' ∉ t := by
  induction h with
  | one n =>
    have := hn n (by simp)
    simp only [List.mem_cons, List.mem_append, List.not_mem_nil, or_false]
    rintro (e | e | e)
    · exact absurd e (by decide)
    · exact this e
    · exact absurd e (by decide)
  | cons n m ns sep t hs ht ih =>
    have h1 := hn n (by simp)
    have h2 := ih fun k hk => hn k (by simp [hk])
    simp only [List.mem_cons, List.mem_append]
    rintro (e | e | e | e | e)
    · exact absurd e (by decide)
    · exact h1 e
    · exact absurd e (by decide)
    · have : ∀ s ∈ [",".toList, " ".toList, ", ".toList], '=' ∉ s := by decide
      exact this sep hs e
    · exact h2 e

/-- commas become blanks and doubled blanks one -/
theorem quoted_commas {ns : List Str} {t : Str} (h : QuotedNames ns t)
    (hn : ∀ n ∈ ns, ',' ∉ n ∧ ¬ [' ', ' '] <:+: n) :
    collapse ' ' (replaceChar ',' [' '] t) = Q ' ' ns := by
  have hq : ∀ u : Str, collapse ' ' ('"' :: u) = '"' :: collapse ' ' u := fun u => collapse_cons_ne _ _ _ (by decide)
  induction h with
  | one n =>
    obtain ⟨h1, h2⟩ := hn n (by simp)
    have e : replaceChar ',' [' '] ('"' :: (n ++ ['"'])) = '"' :: (n ++ ['"']) := by
      apply replaceChar_none
      simp only [List.mem_cons, List.mem_append, List.not_mem_nil, or_false]
      rintro (e | e | e)
      · exact absurd e (by decide)
      · exact h1 e
      · exact absurd e (by decide)
    rw [e, hq, collapse_sep _ _ (by decide), collapse_none _ _ h2]
    rfl
  | cons n m ns sep t hs ht ih =>
    obtain ⟨h1, h2⟩ := hn n (by simp)
    have ih := ih fun k hk => hn k (by simp [hk])
    obtain ⟨u, hu⟩ : ∃ u, replaceChar ',' [' '] t = '"' :: u := by
      obtain ⟨_, u, rfl⟩ := quoted_trimmed ht
      rw [replaceChar_cons, if_neg (by decide)]
      exact ⟨_, rfl⟩
    have e : replaceChar ',' [' '] ('"' :: (n ++ '"' :: (sep ++ t)))
        = '"' :: (n ++ '"' :: (replaceChar ',' [' '] sep ++ replaceChar ',' [' '] t)) := by
      rw [replaceChar_cons, if_neg (by decide), replaceChar_append, replaceChar_none _ _ _ h1, replaceChar_cons,
        if_neg (by decide), replaceChar_append]
      rfl
    have e2 : collapse ' ' (replaceChar ',' [' '] sep ++ replaceChar ',' [' '] t)
        = ' ' :: collapse ' ' (replaceChar ',' [' '] t) := by
      rw [hu]
      simp only [List.mem_cons, List.not_mem_nil, or_false] at hs
      rcases hs with rfl | rfl | rfl
      · show collapse ' ' (' ' :: '"' :: u) = _
        rw [collapse, if_neg (by decide)]
      · show collapse ' ' (' ' :: '"' :: u) = _
        rw [collapse, if_neg (by decide)]
      · show collapse ' ' (' ' :: ' ' :: '"' :: u) = _
        rw [collapse, if_pos ⟨rfl, rfl⟩]
    rw [e, hq, collapse_sep _ _ (by decide), collapse_none _ _ h2, e2, ih, Q_cons]

theorem mem_commas {c : Char} {t : Str} (h : c ∈ replaceChar ',' [' '] t) : c ∈ t ∨ c = ' ' := by
  rcases mem_replaceChar _ _ _ _ h with h | h
  · exact .inl h
  · exact .inr (by simpa using h)

theorem stable_noBB {n : Str} (h : Stable n) : ¬ [' ', ' '] <:+: n := h.1

theorem replaceChar_trimmed (t : Str) (ht : Trimmed t)
    (h1 : t.head? ≠ some ',') (h2 : t.getLast? ≠ some ',') : Trimmed (replaceChar ',' [' '] t) := by
  obtain ⟨hne, ha, hb⟩ := ht
  obtain ⟨c, u, rfl⟩ := List.exists_cons_of_ne_nil hne
  refine ⟨?_, ?_, ?_⟩
  · rw [replaceChar_cons]; split <;> simp
  · intro d hd
    rw [replaceChar_cons, if_neg (by rintro rfl; exact h1 rfl)] at hd
    exact ha d hd
  · intro d hd
    obtain ⟨v, l, hl⟩ := List.eq_nil_or_concat (c :: u) |>.resolve_left hne
    have hl : c :: u = v ++ [l] := by simpa using hl
    rw [hl, List.getLast?_concat] at hb h2
    rw [hl, replaceChar_append] at hd
    have : replaceChar ',' [' '] [l] = [l] := replaceChar_none _ _ _ (by
      intro e; rw [List.mem_singleton] at e; exact h2 (by rw [e]))
    rw [this, List.getLast?_concat] at hd
    exact hb d hd

theorem quoted_last {ns : List Str} {t : Str} (h : QuotedNames ns t) : t.getLast? = some '"' := by
  induction h with
  | one n => rw [← List.cons_append, List.getLast?_concat]
  | cons n m ns sep t hs ht ih =>
    have e : '"' :: (n ++ '"' :: (sep ++ t)) = ('"' :: (n ++ '"' :: sep)) ++ t := by simp
    rw [e, List.getLast?_append, ih]; rfl

theorem procVars_quoted (ns : List Str) (pre t : Str) (hn : ∀ n ∈ ns, NoSeps n ∧ Stable n ∧ n.head? ≠ some ' ')
    (hp : Intro pre) (ht : QuotedNames ns t) : procVars (pre ++ t) = ns := by
  have hne : ns ≠ [] := by cases ht <;> simp
  have hok : ∀ n ∈ ns, NameOk n := fun n h =>
    ⟨(hn n h).1.1, (hn n h).1.2.1, (hn n h).1.2.2.1, (hn n h).1.2.2.2, (hn n h).2.2⟩
  obtain ⟨htr, u, hu⟩ := quoted_trimmed ht
  have s1 := intro_gone pre t hp htr (quoted_noeq ht fun n h => (hn n h).1.1)
  have s2 : strip (replaceChar ',' [' '] t) = replaceChar ',' [' '] t :=
    strip_trimmed (replaceChar_trimmed t htr (by rw [hu]; exact fun e => absurd (Option.some.inj e) (by decide))
      (by rw [quoted_last ht]; exact fun e => absurd (Option.some.inj e) (by decide)))
  have hcols := quoted_commas ht fun n h => ⟨(hn n h).1.2.1, (hn n h).2.1.1⟩
  have hst : ns.map norm = ns := by
    conv => rhs; rw [← List.map_id ns]
    exact List.map_congr_left fun n h => norm_stable n (hn n h).2.1
  have hw := procVars_written ns hne hok
  have htQ : QuotedNames ns (Q ',' ns) := by
    clear hn hok s1 s2 hcols hst hw ht
    induction ns with
    | nil => exact absurd rfl hne
    | cons n ns ih =>
      cases ns with
      | nil => exact .one n
      | cons m ns => rw [Q_cons]; exact .cons n m ns [','] _ (by decide) (ih (by simp))
  have hcolsQ := quoted_commas htQ fun n h => ⟨(hn n h).1.2.1, (hn n h).2.1.1⟩
  obtain ⟨htrQ, uQ, huQ⟩ := quoted_trimmed htQ
  have s1Q := intro_gone "= ".toList _ (.inr ⟨1, rfl⟩) htrQ (quoted_noeq htQ fun n h => (hn n h).1.1)
  have s2Q : strip (replaceChar ',' [' '] (Q ',' ns)) = replaceChar ',' [' '] (Q ',' ns) :=
    strip_trimmed (replaceChar_trimmed _ htrQ (by rw [huQ]; exact fun e => absurd (Option.some.inj e) (by decide))
      (by rw [quoted_last htQ]; exact fun e => absurd (Option.some.inj e) (by decide)))
  rw [procVars_tail, s1Q, s2Q, hcolsQ] at hw
  rw [procVars_tail, s1, s2, hcols, hw, hst]

/-- words with blanks between them -/
inductive SpaceNames : List Str → Str → Prop
  | one (n : Str) : SpaceNames [n] n
  | cons (n m : Str) (ns : List Str) (k : Nat) (t : Str) : SpaceNames (m :: ns) t →
    SpaceNames (n :: m :: ns) (n ++ ' ' :: (List.replicate k ' ' ++ t))

theorem trimmed_word {w : Str} (h : IsWord w) : Trimmed w :=
  ⟨h.1, fun c hc => h.2 c (List.mem_of_head? hc), fun c hc => h.2 c (List.mem_of_getLast? hc)⟩

theorem trimmed_append {a b : Str} (u : Str) (ha : Trimmed a) (hb : Trimmed b) : Trimmed (a ++ (u ++ b)) := by
  refine ⟨by simp [ha.1], ?_, ?_⟩
  · intro c hc
    obtain ⟨x, a', rfl⟩ := List.exists_cons_of_ne_nil ha.1
    exact ha.2.1 c hc
  · intro c hc
    rw [← List.append_assoc, List.getLast?_append_of_ne_nil _ hb.1] at hc
    exact hb.2.2 c hc

theorem space_trimmed {ns : List Str} {t : Str} (h : SpaceNames ns t) (hw : ∀ n ∈ ns, IsWord n) : Trimmed t := by
  induction h with
  | one n => exact trimmed_word (hw n (by simp))
  | cons n m ns k t ht ih =>
    exact trimmed_append (' ' :: List.replicate k ' ') (trimmed_word (hw n (by simp))) (ih fun k hk => hw k (by simp [hk]))

theorem plain_trimmed {ns : List Str} {t : Str} (h : PlainNames ns t) (hw : ∀ n ∈ ns, IsWord n) : Trimmed t := by
  induction h with
  | one n => exact trimmed_word (hw n (by simp))
  | cons n m ns sep t hs hc ht ih =>
    exact trimmed_append sep (trimmed_word (hw n (by simp))) (ih fun k hk => hw k (by simp [hk]))

theorem plain_noeq {ns : List Str} {t : Str} (h : PlainNames ns t) (hn : ∀ n ∈ ns, '=' ∉ n) : '=' ∉ t := by
  induction h with
  | one n => exact hn n (by simp)
  | cons n m ns sep t hs hc ht ih =>
    simp only [List.mem_append]
    rintro (e | e | e)
    · exact hn n (by simp) e
    · exact absurd (hc _ e) (by decide)
    · exact ih (fun k hk => hn k (by simp [hk])) e

theorem plain_commas {ns : List Str} {t : Str} (h : PlainNames ns t) (hn : ∀ n ∈ ns, ',' ∉ n) :
    SpaceNames ns (replaceChar ',' [' '] t) := by
  induction h with
  | one n => rw [replaceChar_none _ _ _ (hn n (by simp))]; exact .one n
  | cons n m ns sep t hs hc ht ih =>
    rw [replaceChar_append, replaceChar_append, replaceChar_none _ _ _ (hn n (by simp))]
    have : ∀ sep : Str, (∀ c ∈ sep, c = ' ' ∨ c = ',') → replaceChar ',' [' '] sep = List.replicate sep.length ' ' := by
      intro sep
      induction sep with
      | nil => intro _; rfl
      | cons c sep ih =>
        intro h
        rw [replaceChar_cons, ih fun d hd => h d (by simp [hd]), List.length_cons, List.replicate_succ]
        rcases h c (by simp) with rfl | rfl <;> rfl
    rw [this sep hc]
    obtain ⟨c, sep', rfl⟩ := List.exists_cons_of_ne_nil hs
    rw [List.length_cons, List.replicate_succ]
    exact .cons n m ns _ _ (ih fun k hk => hn k (by simp [hk]))

theorem collapse_blanks (k : Nat) (t : Str) (ht : t.head? ≠ some ' ') :
    ∃ j, collapse ' ' (' ' :: (List.replicate k ' ' ++ t)) = ' ' :: (List.replicate j ' ' ++ collapse ' ' t) := by
  induction k using Nat.strong_induction_on with
  | _ k ih =>
    cases k with
    | zero =>
      refine ⟨0, ?_⟩
      cases t with
      | nil => rfl
      | cons a t =>
        show collapse ' ' (' ' :: a :: t) = _
        rw [collapse, if_neg (by rintro ⟨_, rfl⟩; exact ht rfl)]; rfl
    | succ k =>
      rw [List.replicate_succ, List.cons_append, collapse, if_pos ⟨rfl, rfl⟩]
      cases k with
      | zero => exact ⟨0, by simp⟩
      | succ k =>
        obtain ⟨j, hj⟩ := ih k (by omega)
        refine ⟨j + 1, ?_⟩
        rw [List.replicate_succ, List.cons_append, hj, List.replicate_succ]; rfl

theorem collapse_pre (c : Char) (n t : Str) (hn : c ∉ n) : collapse c (n ++ t) = n ++ collapse c t := by
  induction n with
  | nil => rfl
  | cons a n ih =>
    rw [List.cons_append, collapse_cons_ne _ _ _ (by rintro rfl; simp at hn), ih (by simp at hn; exact hn.2)]; rfl

theorem space_head {ns : List Str} {t : Str} (h : SpaceNames ns t) (hw : ∀ n ∈ ns, IsWord n) :
    ∃ n, n ∈ ns ∧ t.head? = n.head? := by
  cases h with
  | one n => exact ⟨_, by simp, rfl⟩
  | cons n m ns k t ht =>
    refine ⟨n, by simp, ?_⟩
    obtain ⟨a, n', rfl⟩ := List.exists_cons_of_ne_nil (hw n (by simp)).1
    rfl

theorem space_collapse {ns : List Str} {t : Str} (h : SpaceNames ns t) (hw : ∀ n ∈ ns, IsWord n) :
    SpaceNames ns (collapse ' ' t) := by
  induction h with
  | one n => rw [collapse_none _ _ (fun hi => (hw n (by simp)).space (hi.subset (by simp)))]; exact .one n
  | cons n m ns k t ht ih =>
    have hw' : ∀ n ∈ m :: ns, IsWord n := fun k hk => hw k (List.mem_cons_of_mem _ hk)
    obtain ⟨x, hx, hh⟩ := space_head ht hw'
    have h1 : t.head? ≠ some ' ' := by
      rw [hh]; intro e
      exact (hw' x hx).space (List.mem_of_head? e)
    obtain ⟨j, hj⟩ := collapse_blanks k t h1
    rw [collapse_pre _ _ _ (hw n (by simp)).space, hj]
    exact .cons n m ns j _ (ih hw')

theorem space_replace (a : Char) (b : Str) (ha : a ≠ ' ') {ns : List Str} {t : Str} (h : SpaceNames ns t) :
    SpaceNames (ns.map (replaceChar a b)) (replaceChar a b t) := by
  induction h with
  | one n => exact .one _
  | cons n m ns k t ht ih =>
    rw [replaceChar_append, replaceChar_cons, if_neg (Ne.symm ha), replaceChar_append, replaceChar_none a b (List.replicate k ' ')]
    · exact .cons _ _ _ k _ ih
    · intro h; exact ha (List.mem_replicate.1 h).2

theorem space_under {ns : List Str} {t : Str} (h : SpaceNames ns t) :
    SpaceNames (ns.map (collapse '_')) (collapse '_' t) := by
  induction h with
  | one n => exact .one _
  | cons n m ns k t ht ih =>
    have : collapse '_' (List.replicate k ' ' ++ t) = List.replicate k ' ' ++ collapse '_' t :=
      collapse_pre _ _ _ (by intro h; exact absurd (List.mem_replicate.1 h).2 (by decide))
    rw [collapse_sep _ _ (by decide), this]
    exact .cons _ _ _ k _ ih

theorem space_words {ns : List Str} {t : Str} (h : SpaceNames ns t) (hw : ∀ n ∈ ns, IsWord n) : words t = ns := by
  induction h with
  | one n => exact words_word (hw n (by simp))
  | cons n m ns k t ht ih =>
    have : ∀ a (s : Str), words (List.replicate a ' ' ++ s) = words s := by
      intro a s
      induction a with
      | zero => simp
      | succ k ih => rw [List.replicate_succ, List.cons_append, words_cons_ws _ _ isWs_space, ih]
    rw [words_word_cons (hw n (by simp)) _ _ isWs_space, this, ih fun k hk => hw k (by simp [hk])]

theorem word_replace (a : Char) (b n : Str) (hb : IsWord b) (hn : IsWord n) : IsWord (replaceChar a b n) := by
  refine ⟨?_, ?_⟩
  · obtain ⟨c, n', rfl⟩ := List.exists_cons_of_ne_nil hn.1
    rw [replaceChar_cons]
    split
    · simp [hb.1]
    · simp
  · intro c hc
    rcases mem_replaceChar _ _ _ _ hc with h | h
    · exact hn.2 c h
    · exact hb.2 c h

theorem word_collapse (c : Char) (n : Str) (hn : IsWord n) : IsWord (collapse c n) := by
  refine ⟨?_, fun d hd => hn.2 d (collapse_mem _ _ _ hd)⟩
  intro e
  have := collapse_head? c n
  rw [e] at this
  obtain ⟨x, n', rfl⟩ := List.exists_cons_of_ne_nil hn.1
  exact nomatch this

theorem procVars_plain (ns : List Str) (pre t : Str) (hn : ∀ n ∈ ns, NoSeps n ∧ Stable n ∧ IsWord n)
    (hp : Intro pre) (ht : PlainNames ns t) : procVars (pre ++ t) = ns := by
  have hw : ∀ n ∈ ns, IsWord n := fun n h => (hn n h).2.2
  have s1 := intro_gone pre t hp (plain_trimmed ht hw) (plain_noeq ht fun n h => (hn n h).1.1)
  have p2 := plain_commas ht fun n h => (hn n h).1.2.1
  have s2 := strip_trimmed (space_trimmed p2 hw)
  have p3 := space_collapse p2 hw
  have s3 := strip_trimmed (space_trimmed p3 hw)
  have p4 := space_replace '[' ['_', '['] (by decide) p3
  have w4 : ∀ n ∈ ns.map (replaceChar '[' ['_', '[']), IsWord n := by
    intro n hm
    obtain ⟨k, hk, rfl⟩ := List.mem_map.1 hm
    exact word_replace _ _ _ (by unfold IsWord; decide) (hw k hk)
  have s4 := strip_trimmed (space_trimmed p4 w4)
  have p5 := space_replace '(' ['_', '('] (by decide) p4
  have w5 : ∀ n ∈ (ns.map (replaceChar '[' ['_', '['])).map (replaceChar '(' ['_', '(']), IsWord n := by
    intro n hm
    obtain ⟨k, hk, rfl⟩ := List.mem_map.1 hm
    exact word_replace _ _ _ (by unfold IsWord; decide) (w4 k hk)
  have s5 := strip_trimmed (space_trimmed p5 w5)
  have p6 := space_under p5
  have hst : ((ns.map (replaceChar '[' ['_', '['])).map (replaceChar '(' ['_', '('])).map (collapse '_') = ns := by
    rw [List.map_map, List.map_map]
    conv => rhs; rw [← List.map_id ns]
    apply List.map_congr_left
    intro n h
    have := norm_stable n (hn n h).2.1
    rw [norm, collapse_none _ _ (hn n h).2.1.1] at this
    exact this
  rw [hst] at p6
  have s6 := strip_trimmed (space_trimmed p6 hw)
  rw [procVars_tail, s1, s2, s3, varsTail]
  simp only [s4, s5, s6]
  rw [if_neg, space_words p6 hw]
  obtain ⟨n, hm, hh⟩ := space_head p6 hw
  rw [hh]
  intro e
  exact (hn n hm).1.2.2.1 (List.mem_of_head? e)

/-! ### What a section says -/

/-- the effect of a section -/
def apply (d : Doc F) : Says F → Doc F
  | .title t => { d with title := some t }
  | .vars ns => { d with vars := some ns }
  | .zone k v => { d with zone := some (setKey k v (d.zone.getD [])) }
  | .aux k v => { d with aux := some (setKey k v (d.aux.getD [])) }
  | .text t => { d with text := some t }
  | .geometry t => { d with geometry := some t }
  | .labels t => { d with customlabels := some t }
  | .varaux t => { d with varaux := some t }

/-- the text of a section on one line -/
def Sect.merged (s : Sect F) : Str := joinWith [' '] s.texts

theorem joinWith_head_append (a b : Str) (l : List Str) : joinWith [' '] ((a ++ b) :: l) = a ++ joinWith [' '] (b :: l) := by
  cases l with
  | nil => rfl
  | cons x l => simp [joinWith]

theorem strip_pads (b : Nat) (w : Str) (hw : strip w = w) : strip (List.replicate b ' ' ++ w) = w := by
  rw [strip_replicate, hw]

theorem procPair_content (T : Txt F) (k t : Str) (v : Val F) (b : Nat) (hk : '=' ∉ k) (hv : ValueText T v t) :
    procPair T (k ++ '=' :: (List.replicate b ' ' ++ t)) = .ok (k, v) := by
  have hrep : ∀ c : Char, c ≠ ' ' → c ∉ List.replicate b ' ' := fun c hc h => hc (List.mem_replicate.1 h).2
  -- the text of the value without quotes
  have key : ∀ w : Str, (t = w ∨ t = '"' :: (w ++ ['"'])) → '=' ∉ w → '"' ∉ w → strip w = w →
      splitOn '=' (k ++ '=' :: (List.replicate b ' ' ++ t)) = [k, List.replicate b ' ' ++ t] ∧
      strip (replaceChar '"' [] (List.replicate b ' ' ++ t)) = w := by
    intro w ht he hq hs
    constructor
    · rw [splitOn_append _ _ _ hk, splitOn_noSep]
      rw [List.mem_append]
      rintro (h | h)
      · exact hrep _ (by decide) h
      · rcases ht with rfl | rfl
        · exact he h
        · simp only [List.mem_cons, List.mem_append, List.not_mem_nil, or_false] at h
          rcases h with h | h | h
          · exact absurd h (by decide)
          · exact he h
          · exact absurd h (by decide)
    · rw [replaceChar_append, replaceChar_none _ _ _ (hrep '"' (by decide))]
      rcases ht with rfl | rfl
      · rw [replaceChar_none _ _ _ hq]; exact strip_pads b _ hs
      · rw [replaceChar_cons, if_pos rfl, List.nil_append, replaceChar_append, replaceChar_none _ _ _ hq]
        show strip (List.replicate b ' ' ++ (w ++ [])) = w
        rw [List.append_nil]; exact strip_pads b _ hs
  unfold procPair
  cases hv with
  | num x w h1 h2 h3 h4 h5 =>
    obtain ⟨ka, kb⟩ := key t (.inl rfl) h2 h3 h1
    simp only [ka, kb, h4, h5, if_true]
  | qnum x w h1 h2 h3 h4 h5 =>
    obtain ⟨ka, kb⟩ := key w (.inr rfl) h2 h3 h1
    simp only [ka, kb, h4, h5, if_true]
  | txt w h1 h2 h3 h4 =>
    obtain ⟨ka, kb⟩ := key t (.inl rfl) h2 h3 h1
    simp only [ka, kb, h4, Bool.false_eq_true, if_false]
  | qtxt w h1 h2 h3 h4 =>
    obtain ⟨ka, kb⟩ := key w (.inr rfl) h2 h3 h1
    simp only [ka, kb, h4, Bool.false_eq_true, if_false]

theorem process_sect (T : Txt F) (s : Sect F) (hs : SectOk T s) (d : Doc F) :
    process T s.mean.sec s.merged d = .ok (apply d s.mean) := by
  have e : strip (s.merged.drop s.mean.sec.kw.length) = strip (joinWith [' '] (s.head :: s.more)) := by
    rw [Sect.merged, Sect.texts, joinWith_head_append, ← kw_length hs, List.drop_left]
  have hc := hs.content
  unfold process
  simp only [e]
  generalize strip (joinWith [' '] (s.head :: s.more)) = c at hc ⊢
  generalize s.mean = m at hc ⊢
  cases hc with
  | title t => rfl
  | text t => rfl
  | geometry t => rfl
  | labels t => rfl
  | varaux t => rfl
  | quoted ns pre t h1 h2 h3 => simp only [Says.sec, procVars_quoted ns pre t h1 h2 h3, apply]
  | plain ns pre t h1 h2 h3 => simp only [Says.sec, procVars_plain ns pre t h1 h2 h3, apply]
  | zone k t v b h1 h2 => simp only [Says.sec, procPair_content T k t v b h1 h2, apply, Except.map]
  | aux k t v b h1 h2 => simp only [Says.sec, procPair_content T k t v b h1 h2, apply, Except.map]

/-! ### The header -/

theorem lines_nil {lns : List Str} (h : Lines [] lns) (T : Txt F) (rest : List Str) (cur : Cur) (d : Doc F) :
    loop T (lns ++ rest) cur d = loop T rest cur d := by
  generalize hts : ([] : List Str) = ts at h
  induction h with
  | nil => rfl
  | comment ln t ts lns h1 h2 h3 ih => rw [List.cons_append, loop_comment T ln t h1 h2, ih hts]
  | text => exact nomatch hts

theorem lines_cons {t : Str} {ts lns : List Str} (h : Lines (t :: ts) lns) :
    ∃ ln lns', Shows ln t ∧ Lines ts lns' ∧
      ∀ {F : Type} (T : Txt F) (rest : List Str) (cur : Cur) (d : Doc F),
        loop T (lns ++ rest) cur d = loop T (ln :: (lns' ++ rest)) cur d := by
  generalize hts : t :: ts = ts' at h
  induction h with
  | nil => exact nomatch hts
  | comment ln u us lns h1 h2 h3 ih =>
    obtain ⟨ln', lns', a, b, c⟩ := ih hts
    exact ⟨ln', lns', a, b, fun T rest cur d => by rw [List.cons_append, loop_comment T ln u h1 h2, c T rest cur d]⟩
  | text ln u us lns h1 h2 ih =>
    injection hts with e1 e2
    subst e1 e2
    exact ⟨ln, lns, h1, h2, fun T rest cur d => rfl⟩

/-- the lines that continue a section -/
theorem loop_more (T : Txt F) (more : List Str) (hm : ∀ t ∈ more, Continues T t) (ts lns : List Str)
    (h : Lines (more ++ ts) lns) (s : Sec) (m : Str) (d : Doc F) (hv : more ≠ [] → needsVars s = true → d.vars.isSome) :
    ∃ lns', Lines ts lns' ∧ ∀ rest, loop T (lns ++ rest) (some (s, m)) d
      = loop T (lns' ++ rest) (some (s, joinWith [' '] (m :: more))) d := by
  induction more generalizing m lns with
  | nil => exact ⟨lns, h, fun rest => rfl⟩
  | cons t more ih =>
    obtain ⟨ln, lns1, h1, h2, h3⟩ := lines_cons h
    obtain ⟨lns', h4, h5⟩ := ih (fun u hu => hm u (by simp [hu])) lns1 h2 (m ++ [' '] ++ t) (fun _ => hv (by simp))
    refine ⟨lns', h4, fun rest => ?_⟩
    rw [h3 T rest, loop_cont T ln t h1 (hm t (by simp)) _ s m d (hv (by simp)), h5 rest]
    cases more <;> simp [joinWith]

theorem apply_vars (d : Doc F) (m : Says F) (h : d.vars.isSome ∨ m.sec = .variables) : (apply d m).vars.isSome := by
  cases m <;> simp [apply, Says.sec] at h ⊢ <;> exact h

theorem needsVars_iff (s : Sec) : needsVars s = true ↔ s ≠ .title ∧ s ≠ .variables := by
  cases s <;> simp [needsVars]

/-- the header is read up to the section in progress -/
theorem loop_header (T : Txt F) (S : List (Sect F)) (hS : S ≠ []) (hok : ∀ s ∈ S, SectOk T s) (lns : List Str)
    (h : Lines (S.flatMap Sect.texts) lns) (cur : Cur) (d d' : Doc F) (hf : flush T cur d = .ok d')
    (hv : ∀ pre s post, S = pre ++ s :: post → needsVars s.mean.sec = true → (s.more ≠ [] ∨ post = []) →
      d'.vars.isSome ∨ ∃ v ∈ pre, v.mean.sec = .variables) :
    ∃ s m d2, (∀ rest, loop T (lns ++ rest) cur d = loop T rest (some (s, m)) d2) ∧
      flush T (some (s, m)) d2 = .ok ((S.map Sect.mean).foldl apply d') ∧
      (needsVars s = true → d2.vars.isSome) := by
  induction S generalizing lns cur d d' with
  | nil => exact absurd rfl hS
  | cons s S ih =>
    have hs := hok s (by simp)
    rw [List.flatMap_cons] at h
    have h : Lines ((s.kw ++ s.head) :: (s.more ++ S.flatMap Sect.texts)) lns := h
    obtain ⟨ln, lns1, h1, h2, h3⟩ := lines_cons h
    have hv0 := hv [] s S rfl
    have hmore : s.more ≠ [] → needsVars s.mean.sec = true → d'.vars.isSome := fun hm hn => by
      rcases hv0 hn (.inl hm) with h | ⟨v, hv, _⟩
      · exact h
      · exact nomatch hv
    obtain ⟨lns2, h4, h5⟩ := loop_more T s.more hs.more (S.flatMap Sect.texts) lns1 h2 s.mean.sec (s.kw ++ s.head) d' hmore
    have hstep : ∀ rest, loop T (lns ++ rest) cur d = loop T (lns2 ++ rest) (some (s.mean.sec, s.merged)) d' := by
      intro rest
      rw [h3 T rest, loop_sect T s hs ln h1 _ cur d d' hf, h5 rest]
      rfl
    have hfl : flush T (some (s.mean.sec, s.merged)) d' = .ok (apply d' s.mean) := process_sect T s hs d'
    cases S with
    | nil =>
      refine ⟨s.mean.sec, s.merged, d', fun rest => ?_, hfl, fun hn => ?_⟩
      · rw [hstep rest]; exact lines_nil h4 T rest _ _
      · rcases hv0 hn (.inr rfl) with h | ⟨v, hv, _⟩
        · exact h
        · exact nomatch hv
    | cons s' S =>
      obtain ⟨s2, m2, d2, a, b, c⟩ := ih (by simp) (fun x hx => hok x (by simp [hx])) lns2 h4 _ _ _ hfl (by
        intro pre x post hpre hn hx
        rcases hv (s :: pre) x post (by rw [hpre]; rfl) hn hx with h | ⟨v, hvm, hve⟩
        · exact .inl (apply_vars _ _ (.inl h))
        · rcases List.mem_cons.1 hvm with rfl | hvm
          · exact .inl (apply_vars _ _ (.inr hve))
          · exact .inr ⟨v, hvm, hve⟩)
      exact ⟨s2, m2, d2, fun rest => by rw [hstep rest, a rest], b, c⟩

/-- without variables the header is refused or leaves the variables unknown -/
theorem loop_novars (T : Txt F) (S : List (Sect F)) (hS : S ≠ []) (hok : ∀ s ∈ S, SectOk T s)
    (hno : ∀ s ∈ S, s.mean.sec ≠ .variables) (lns : List Str)
    (h : Lines (S.flatMap Sect.texts) lns) (cur : Cur) (d d' : Doc F) (hf : flush T cur d = .ok d') (hd : d'.vars = none) :
    (∀ rest, loop T (lns ++ rest) cur d = .error .wrong) ∨
    ∃ s m d2 d3, S.getLast?.map (fun s => s.mean.sec) = some s ∧
      (∀ rest, loop T (lns ++ rest) cur d = loop T rest (some (s, m)) d2) ∧
      flush T (some (s, m)) d2 = .ok d3 ∧ d2.vars = none ∧ d3.vars = none := by
  induction S generalizing lns cur d d' with
  | nil => exact absurd rfl hS
  | cons s S ih =>
    have hs := hok s (by simp)
    rw [List.flatMap_cons] at h
    have h : Lines ((s.kw ++ s.head) :: (s.more ++ S.flatMap Sect.texts)) lns := h
    obtain ⟨ln, lns1, h1, h2, h3⟩ := lines_cons h
    by_cases hm : s.more ≠ [] ∧ needsVars s.mean.sec = true
    · left
      intro rest
      rw [h3 T rest, loop_sect T s hs ln h1 _ cur d d' hf]
      obtain ⟨t, more, hmore⟩ := List.exists_cons_of_ne_nil hm.1
      rw [hmore] at h2
      obtain ⟨ln2, lns2, h4, h5, h6⟩ := lines_cons h2
      have hc := hs.more t (by rw [hmore]; simp)
      rw [h6 T rest]
      exact loop_early T ln2 t h4 hc.1 hc.2.1 hc.2.2.1 _ _ _ _ hm.2 hd
    · have hmore : s.more ≠ [] → needsVars s.mean.sec = true → d'.vars.isSome := fun a b => absurd ⟨a, b⟩ hm
      obtain ⟨lns2, h4, h5⟩ := loop_more T s.more hs.more (S.flatMap Sect.texts) lns1 h2 s.mean.sec (s.kw ++ s.head) d' hmore
      have hstep : ∀ rest, loop T (lns ++ rest) cur d = loop T (lns2 ++ rest) (some (s.mean.sec, s.merged)) d' := by
        intro rest
        rw [h3 T rest, loop_sect T s hs ln h1 _ cur d d' hf, h5 rest]
        rfl
      have hfl : flush T (some (s.mean.sec, s.merged)) d' = .ok (apply d' s.mean) := process_sect T s hs d'
      have hva : (apply d' s.mean).vars = none := by
        have := hno s (by simp)
        generalize s.mean = m at this ⊢
        cases m <;> first | exact hd | exact absurd rfl this
      cases S with
      | nil =>
        right
        exact ⟨s.mean.sec, s.merged, d', _, rfl, fun rest => by rw [hstep rest]; exact lines_nil h4 T rest _ _, hfl, hd, hva⟩
      | cons s' S =>
        rcases ih (by simp) (fun x hx => hok x (by simp [hx])) (fun x hx => hno x (by simp [hx])) lns2 h4 _ _ _ hfl hva with
          h | ⟨s2, m2, d2, d3, a, b, c⟩
        · exact .inl fun rest => by rw [hstep rest, h rest]
        · exact .inr ⟨s2, m2, d2, d3, by rw [List.getLast?_cons_cons]; exact a, fun rest => by rw [hstep rest, b rest], c⟩

/-! ### The data -/

theorem forall₂_words {T : Txt F} {r : List F} {ws : List Str} (h : List.Forall₂ (NumWord T) r ws) :
    allSome (ws.map T.dec) = some r := by
  induction h with
  | nil => rfl
  | cons h1 _ ih => rw [List.map_cons, h1.2.2.1, allSome, ih]; rfl

theorem takeWhile_tail (t c : Str) (ht : '#' ∉ t) : (t ++ '#' :: c).takeWhile (· ≠ '#') = t := by
  rw [List.takeWhile_append_of_pos]
  · simp
  · intro a ha
    refine decide_eq_true ?_
    rintro rfl; exact ht ha

theorem takeWhile_no (t : Str) (ht : '#' ∉ t) : t.takeWhile (· ≠ '#') = t := by
  apply takeWhile_all
  intro a ha
  refine decide_eq_true ?_
  rintro rfl; exact ht ha

theorem loadLine_rowLine (T : Txt F) (r : List F) (ln : Str) (h : RowLine T r ln) : loadLine T ln = some r := by
  obtain ⟨t, tail, rfl, htail, hh, hw⟩ := h
  rw [loadLine]
  rcases htail with rfl | ⟨c, rfl⟩
  · rw [List.append_nil, takeWhile_no t hh, forall₂_words hw]
  · have e : t ++ ' ' :: '#' :: c = (t ++ [' ']) ++ '#' :: c := by simp
    rw [e, takeWhile_tail _ _ (by simp [hh]), words_append_ws _ _ isWs_space, forall₂_words hw]

theorem words_blank (a : Str) (h : ∀ c ∈ a, isWs c = true) : words a = [] := by
  have := words_append_allWs [] a h
  simpa [words_nil] using this

theorem loadLine_skip (T : Txt F) (ln : Str) (h : Blank ln ∨ ∃ a c, Blank a ∧ ln = a ++ '#' :: c) :
    loadLine T ln = some [] := by
  have hb : ∀ a : Str, Blank a → '#' ∉ a := fun a ha hm => absurd (ha _ hm).1 (by decide)
  rw [loadLine]
  rcases h with h | ⟨a, c, h, rfl⟩
  · rw [takeWhile_no _ (hb _ h), words_blank _ fun c hc => (h c hc).1]; rfl
  · rw [takeWhile_tail _ _ (hb _ h), words_blank _ fun c hc => (h c hc).1]; rfl

theorem rows_load (T : Txt F) (M : List (List F)) (lns : List Str) (h : Rows T M lns) :
    ∃ rows, allSome (lns.map (loadLine T)) = some rows ∧ rows.filter (· ≠ []) = M := by
  induction h with
  | nil => exact ⟨[], rfl, rfl⟩
  | row r ln M lns hr h1 h2 ih =>
    obtain ⟨rows, e1, e2⟩ := ih
    refine ⟨r :: rows, by rw [List.map_cons, loadLine_rowLine T r ln h1, allSome, e1]; rfl, ?_⟩
    rw [List.filter_cons_of_pos (by simpa using hr), e2]
  | skip ln M lns h1 h2 ih =>
    obtain ⟨rows, e1, e2⟩ := ih
    refine ⟨[] :: rows, by rw [List.map_cons, loadLine_skip T ln h1, allSome, e1]; rfl, ?_⟩
    rw [List.filter_cons_of_neg (by simp), e2]

/-! ### The dictionary as a whole -/

theorem setKey_lookup (k k' : Str) (v : Val F) (d : List (Str × Val F)) :
    (setKey k v d).lookup k' = if k' = k then some v else d.lookup k' := by
  induction d with
  | nil =>
    rw [setKey]
    by_cases h : k' = k
    · subst h; simp [List.lookup]
    · rw [if_neg h]; simp [List.lookup, beq_false_of_ne h]
  | cons p d ih =>
    obtain ⟨a, b⟩ := p
    rw [setKey]
    by_cases h : a = k
    · subst h
      rw [if_pos rfl]
      by_cases h' : k' = a
      · subst h'; simp [List.lookup]
      · rw [if_neg h', List.lookup, beq_false_of_ne h', List.lookup, beq_false_of_ne h']
    · rw [if_neg h]
      by_cases h' : k' = a
      · subst h'
        rw [List.lookup, beq_self_eq_true, List.lookup, beq_self_eq_true, if_neg h]
      · rw [List.lookup, beq_false_of_ne h', List.lookup, beq_false_of_ne h', ih]

theorem holds_snoc (d : Option (List (Str × Val F))) (asg : List (Str × Val F)) (k : Str) (v : Val F)
    (h : HoldsLast d asg) : HoldsLast (some (setKey k v (d.getD []))) (asg ++ [(k, v)]) := by
  refine ⟨by simp, fun k' => ?_⟩
  rw [Option.getD_some, setKey_lookup, List.reverse_append]
  show _ = ((k, v) :: asg.reverse).lookup k'
  by_cases h' : k' = k
  · subst h'; simp [List.lookup]
  · rw [if_neg h', List.lookup, beq_false_of_ne h', h.2]

theorem holds_foldl (ss : List (Says F)) : Holds (ss.foldl apply {}) ss ∧ (ss.foldl apply {}).data = none := by
  induction ss using List.reverseRecOn with
  | nil =>
    refine ⟨⟨rfl, rfl, rfl, rfl, rfl, rfl, ⟨by simp [zoneSettings], fun k => rfl⟩, ⟨by simp [auxSettings], fun k => rfl⟩⟩, rfl⟩
  | append_singleton ss m ih =>
    obtain ⟨⟨h1, h2, h3, h4, h5, h6, h7, h8⟩, h9⟩ := ih
    rw [List.foldl_append, List.foldl_cons, List.foldl_nil]
    generalize ss.foldl apply {} = d at h1 h2 h3 h4 h5 h6 h7 h8 h9 ⊢
    have hz : ∀ k v, m = .zone k v → HoldsLast (apply d m).zone (zoneSettings (ss ++ [m])) := by
      rintro k v rfl
      have : zoneSettings (ss ++ [Says.zone k v]) = zoneSettings ss ++ [(k, v)] := by simp [zoneSettings]
      rw [this]; exact holds_snoc _ _ k v h7
    have ha : ∀ k v, m = .aux k v → HoldsLast (apply d m).aux (auxSettings (ss ++ [m])) := by
      rintro k v rfl
      have : auxSettings (ss ++ [Says.aux k v]) = auxSettings ss ++ [(k, v)] := by simp [auxSettings]
      rw [this]; exact holds_snoc _ _ k v h8
    have hz' : (∀ k v, m ≠ .zone k v) → HoldsLast (apply d m).zone (zoneSettings (ss ++ [m])) := by
      intro hne
      have e1 : zoneSettings (ss ++ [m]) = zoneSettings ss := by
        cases m <;> simp_all [zoneSettings]
      have e2 : (apply d m).zone = d.zone := by
        cases m <;> simp_all [apply]
      rw [e1, e2]; exact h7
    have ha' : (∀ k v, m ≠ .aux k v) → HoldsLast (apply d m).aux (auxSettings (ss ++ [m])) := by
      intro hne
      have e1 : auxSettings (ss ++ [m]) = auxSettings ss := by
        cases m <;> simp_all [auxSettings]
      have e2 : (apply d m).aux = d.aux := by
        cases m <;> simp_all [apply]
      rw [e1, e2]; exact h8
    refine ⟨⟨?_, ?_, ?_, ?_, ?_, ?_, ?_, ?_⟩, ?_⟩
    · cases m <;> simp_all [apply, lastTitle, List.getLast?_append]
    · cases m <;> simp_all [apply, lastVars, List.getLast?_append]
    · cases m <;> simp_all [apply, lastText, List.getLast?_append]
    · cases m <;> simp_all [apply, lastGeometry, List.getLast?_append]
    · cases m <;> simp_all [apply, lastLabels, List.getLast?_append]
    · cases m <;> simp_all [apply, lastVaraux, List.getLast?_append]
    · by_cases h : ∃ k v, m = .zone k v
      · obtain ⟨k, v, h⟩ := h; exact hz k v h
      · exact hz' fun k v e => h ⟨k, v, e⟩
    · by_cases h : ∃ k v, m = .aux k v
      · obtain ⟨k, v, h⟩ := h; exact ha k v h
      · exact ha' fun k v e => h ⟨k, v, e⟩
    · cases m <;> exact h9

end Verif.Tecplot
