import Verif.Spec.FastHand
import Verif.Lemmas.FastReadSaved
import Verif.Lemmas.FastText
/-! Lemmas for C87, first part: the lines of a hand-written file. -/
namespace Verif.FastRead
open Verif.Py Verif.FastDict Verif.FastLine Verif.FastTable

variable {N : Num}

/-! ### texts -/

theorem find_infix (k s : Str) (i : Nat) (h : find k s = some i) : k <:+: s := by
  induction s generalizing i with
  | nil =>
    unfold find at h
    split at h
    · next e => subst e; exact List.infix_refl _
    · cases h
  | cons c s ih =>
    unfold find at h
    split at h
    · next e => exact (List.isPrefixOf_iff_prefix.1 e).isInfix
    · cases hf : find k s with
      | none => rw [hf] at h; cases h
      | some j => exact (ih j hf).trans (List.suffix_cons c s).isInfix

theorem find_of_infix (k s : Str) (h : k <:+: s) : ∃ i, find k s = some i := by
  induction s with
  | nil =>
    have : k = [] := List.infix_nil.1 h
    subst this
    exact ⟨0, rfl⟩
  | cons c s ih =>
    unfold find
    split
    · exact ⟨0, rfl⟩
    · next e =>
      rcases List.infix_cons_iff.1 h with h | h
      · exact absurd (List.isPrefixOf_iff_prefix.2 h) e
      · obtain ⟨i, hi⟩ := ih h
        exact ⟨i + 1, by rw [hi]; rfl⟩

theorem find_zero (k s : Str) (h : find k s = some 0) : k <+: s := by
  cases s with
  | nil =>
    unfold find at h
    split at h
    · next e => subst e; exact List.prefix_refl _
    · cases h
  | cons c s =>
    unfold find at h
    split at h
    · next e => exact List.isPrefixOf_iff_prefix.1 e
    · cases hf : find k s with
      | none => rw [hf] at h; cases h
      | some j => rw [hf] at h; simp at h

theorem hasInside_false (l k : Str) (h : ¬ k <:+: upper l) : hasInside l k = false := by
  unfold hasInside
  cases hf : find k (upper l) with
  | none => rfl
  | some i => exact absurd (find_infix _ _ _ hf) h

theorem hasInside_true (l k : Str) (h : k <:+: upper l) (h2 : ¬ k <+: upper l) : hasInside l k = true := by
  unfold hasInside
  obtain ⟨i, hi⟩ := find_of_infix k _ h
  rw [hi]
  cases i with
  | zero => exact absurd (find_zero _ _ hi) h2
  | succ i => simp

theorem noSection (l : Str) (h : NoSection l) : isSection l = false := by
  unfold isSection
  have f : ∀ s ∈ sections, hasInside l s.toList = false := fun s hs => hasInside_false l _ (h s hs)
  unfold sections at f
  rw [f "ADDITIONAL OUTPUTS" (by simp), f "MESH-BASED OUTPUTS" (by simp), f "OUTPUT CHANNELS" (by simp),
    f "SSOUTLIST" (by simp), f "SDOUTLIST" (by simp), f "ADDITIONAL STIFFNESS" (by simp),
    f "DISTRIBUTED PROPERTIES" (by simp)]
  rfl

/-! ### values -/

theorem intText_iff (t : Str) : strIsInt t = true ↔ IntText t := by
  constructor
  · intro h
    cases t with
    | nil => cases h
    | cons c r =>
      simp only [strIsInt] at h
      split at h
      · next hc =>
        unfold isDigits at h
        simp at h
        refine ⟨[c], r, rfl, ?_, ?_, h.2⟩
        · rcases hc with rfl | rfl <;> simp
        · exact h.1
      · unfold isDigits at h
        simp at h
        exact ⟨[], c :: r, rfl, by simp, by simp, by simpa using h⟩
  · rintro ⟨sg, ds, rfl, hs, hne, hd⟩
    have hdig : isDigits ds = true := by
      unfold isDigits
      have : ds.all Char.isDigit = true := List.all_eq_true.2 hd
      rw [this]
      cases ds with
      | nil => exact absurd rfl hne
      | cons a b => rfl
    simp at hs
    rcases hs with rfl | rfl | rfl
    · cases ds with
      | nil => exact absurd rfl hne
      | cons c r =>
        have hf := digit_facts c (hd c (by simp))
        show strIsInt (c :: r) = true
        simp only [strIsInt]
        rw [if_neg (by rintro (h | h); exact hf.2.2.2.1 h; exact hf.2.2.2.2.1 h)]
        exact hdig
    · show strIsInt ('+' :: ds) = true
      simp only [strIsInt]
      rw [if_pos (by simp)]; exact hdig
    · show strIsInt ('-' :: ds) = true
      simp only [strIsInt]
      rw [if_pos (by simp)]; exact hdig

theorem notInt_of_parse (hP : N.toPyFloat.Lawful) (t : Str) (h : N.parse t = none) : strIsInt t = false := by
  rw [Bool.eq_false_iff]
  intro hi
  have := hP.parse_int t hi
  rw [h] at this; cases this

theorem bool_true (t : Str) (h : lower t ∈ ["true".toList, "t".toList]) : strIsBool t = true ∧ strToBool t = true := by
  unfold strIsBool strToBool
  simp only [List.mem_cons, List.not_mem_nil, or_false] at h
  rcases h with h | h <;> rw [h] <;> decide

theorem bool_false (t : Str) (h : lower t ∈ ["false".toList, "f".toList]) : strIsBool t = true ∧ strToBool t = false := by
  unfold strIsBool strToBool
  simp only [List.mem_cons, List.not_mem_nil, or_false] at h
  rcases h with h | h <;> rw [h] <;> decide

theorem notBool (t : Str) (h : lower t ∉ ["true".toList, "t".toList, "false".toList, "f".toList]) :
    strIsBool t = false := by
  unfold strIsBool
  simp only [List.mem_cons, List.not_mem_nil, or_false, not_or] at h
  obtain ⟨h1, h2, h3, h4⟩ := h
  rw [beq_false_of_ne h1, beq_false_of_ne h2, beq_false_of_ne h3, beq_false_of_ne h4]; rfl

theorem int_plus (n : Nat) : strIsInt ('+' :: Nat.toDigits 10 n) = true ∧ pyInt ('+' :: Nat.toDigits 10 n) = n := by
  have hv : Nat.ofDigitChars 10 (Nat.toDigits 10 n) 0 = n := Nat.ofDigitChars_toDigits (by decide) (by decide)
  constructor
  · simp only [strIsInt]; rw [if_pos (by simp)]; exact isDigits_toDigits n
  · simp [pyInt, hv]

theorem int_minus (n : Nat) : strIsInt ('-' :: Nat.toDigits 10 n) = true ∧ pyInt ('-' :: Nat.toDigits 10 n) = -n := by
  have hv : Nat.ofDigitChars 10 (Nat.toDigits 10 n) 0 = n := Nat.ofDigitChars_toDigits (by decide) (by decide)
  constructor
  · simp only [strIsInt]; rw [if_pos (by simp)]; exact isDigits_toDigits n
  · simp [pyInt, hv]

/-- the value of a text that is not an integer -/
theorem scalarOf_other (P : PyFloat) (allow : Bool) (t : Str) (rest : List Str) (h : strIsInt t = false) :
    scalarOf P allow t rest = match P.parse t with
      | some x => .flt x
      | none => if strIsBool t then .bool (strToBool t) else .str t := by
  unfold scalarOf; rw [h]; rfl

theorem scalarOf_int (P : PyFloat) (allow : Bool) (t : Str) (rest : List Str) (h : strIsInt t = true)
    (hn : allow = true → ∀ w, rest.head? = some w → strIsInt w = false) : scalarOf P allow t rest = .int (pyInt t) := by
  unfold scalarOf
  rw [h, if_pos rfl]
  cases rest with
  | nil => rfl
  | cons r rs =>
    simp only
    rw [if_neg]
    intro ha
    rw [Bool.and_eq_true] at ha
    rw [hn ha.1 r rfl] at ha
    simp at ha

theorem means_scalar (hP : N.toPyFloat.Lawful) (allow : Bool) (t : Str) (v : Val N.F) (h : Means N t v) (rest : List Str)
    (hn : allow = true → IntText t → ∀ w, rest.head? = some w → ¬ IntText w) :
    scalarOf N.toPyFloat allow t rest = v := by
  have hn' : strIsInt t = true → allow = true → ∀ w, rest.head? = some w → strIsInt w = false := by
    intro hi ha w hw
    rw [Bool.eq_false_iff]
    intro h2
    exact hn ha ((intText_iff t).1 hi) w hw ((intText_iff w).1 h2)
  cases h with
  | nat n =>
    have h1 := strIsInt_showInt (n : Int)
    have h2 := pyInt_showInt (n : Int)
    rw [show showInt (n : Int) = Nat.toDigits 10 n from rfl] at h1 h2
    rw [scalarOf_int _ _ _ _ h1 (hn' h1), h2]
  | plus n => rw [scalarOf_int _ _ _ _ (int_plus n).1 (hn' (int_plus n).1), (int_plus n).2]
  | minus n => rw [scalarOf_int _ _ _ _ (int_minus n).1 (hn' (int_minus n).1), (int_minus n).2]
  | flt _ x hi hp =>
    have : strIsInt t = false := by rw [Bool.eq_false_iff]; exact fun h => hi ((intText_iff t).1 h)
    rw [scalarOf_other _ _ _ _ this, hp]
  | yes _ hp hb =>
    obtain ⟨h1, h2⟩ := bool_true t hb
    rw [scalarOf_other _ _ _ _ (notInt_of_parse hP t hp), hp, h1, h2]; rfl
  | no _ hp hb =>
    obtain ⟨h1, h2⟩ := bool_false t hb
    rw [scalarOf_other _ _ _ _ (notInt_of_parse hP t hp), hp, h1, h2]; rfl
  | str _ hp hb =>
    rw [scalarOf_other _ _ _ _ (notInt_of_parse hP t hp), hp, notBool t hb]; rfl

theorem means_item (hP : N.toPyFloat.Lawful) (t : Str) (v : Val N.F) (h : ListText N t v) :
    ItemOK N.toPyFloat t ∧ listItem N.toPyFloat t = v := by
  obtain ⟨hw, hc, hm, hs⟩ := h
  have hint : ∀ n : Int, strIsInt t = true → pyInt t = n → ItemOK N.toPyFloat t ∧ listItem N.toPyFloat t = .int n := by
    intro n h1 h2
    refine ⟨⟨hw, hc, ?_⟩, ?_⟩
    · have := hP.parse_int t h1
      simp [strIsFloat, this]
    · unfold listItem; rw [if_pos h1, h2]
  cases hm with
  | nat n => exact hint n (strIsInt_showInt (n : Int)) (pyInt_showInt (n : Int))
  | plus n => exact hint n (int_plus n).1 (int_plus n).2
  | minus n => exact hint _ (int_minus n).1 (int_minus n).2
  | flt _ x hi hp =>
    have h1 : strIsInt t = false := by rw [Bool.eq_false_iff]; exact fun h => hi ((intText_iff t).1 h)
    refine ⟨⟨hw, hc, by simp [strIsFloat, hp]⟩, ?_⟩
    unfold listItem; rw [h1, hp]; rfl
  | yes _ hp hb =>
    obtain ⟨h1, h2⟩ := bool_true t hb
    refine ⟨⟨hw, hc, by simp [h1]⟩, ?_⟩
    unfold listItem; rw [notInt_of_parse hP t hp, hp, h2]; rfl
  | no _ hp hb =>
    obtain ⟨h1, h2⟩ := bool_false t hb
    refine ⟨⟨hw, hc, by simp [h1]⟩, ?_⟩
    unfold listItem; rw [notInt_of_parse hP t hp, hp, h2]; rfl
  | str _ hp hb => exact absurd rfl (hs t)

/-! ### labels -/

theorem labelChar_ws (c : Char) (h : c.isAlphanum = true ∨ c ∈ ['"', '\'', '_', '(', ')', '-']) :
    isWs c = false ∧ c ≠ ',' ∧ c ≠ '!' := by
  rcases h with h | h
  · have h1 : isWordChar c = true := by unfold isWordChar; rw [h]; rfl
    refine ⟨wordChar_ws c h1, ?_, ?_⟩ <;> (rintro rfl; revert h; decide)
  · simp only [List.mem_cons, List.not_mem_nil, or_false] at h
    rcases h with rfl | rfl | rfl | rfl | rfl | rfl <;> decide

theorem label_ok (lab : Str) (h : LabelText N lab) : LabelOK N.toPyFloat lab ∧ hasSpecialChars lab = false := by
  obtain ⟨hne, hc, hp, hb⟩ := h
  refine ⟨⟨⟨hne, fun c h => (labelChar_ws c (hc c h)).1⟩, fun h => (labelChar_ws ',' (hc _ h)).2.1 rfl, hp,
    notBool lab hb, ?_⟩, ?_⟩
  · unfold bangColon
    cases lab with
    | nil => exact absurd rfl hne
    | cons a r =>
      have : a ≠ '!' := (labelChar_ws a (hc a (by simp))).2.2
      simp [this]
  · unfold hasSpecialChars
    rw [Bool.not_eq_false']
    rw [List.all_eq_true]
    intro c h
    rcases hc c h with h | h
    · rw [h]; rfl
    · simp only [List.mem_cons, List.not_mem_nil, or_false] at h
      rcases h with rfl | rfl | rfl | rfl | rfl | rfl <;> decide

theorem tag_iff (w : Str) : bangColon w = true ↔ Tag w := by
  unfold bangColon Tag
  simp

theorem findLabel_skip (mid : List Str) (h : Skip N mid) (lab : Str) (rest : List Str) (hl : LabelOK N.toPyFloat lab) :
    findLabel N.toPyFloat (mid ++ lab :: rest) = some (lab, rest) := by
  induction h with
  | nil => exact findLabel_spec _ lab rest hl
  | num w ms hp ht _ ih =>
    obtain ⟨a, b, hab⟩ : ∃ a b, ms ++ lab :: rest = a :: b := by cases ms <;> simp
    rw [List.cons_append, hab, findLabel, ← hab, if_neg (fun h => ht ((tag_iff w).1 h)),
      if_pos (by unfold strIsFloat; exact hp)]
    exact ih
  | tag w x ms ht _ ih =>
    rw [List.cons_append, List.cons_append, findLabel, if_pos ((tag_iff w).2 ht)]
    exact ih

theorem findLabel_lone (mid : List Str) (h : Skip N mid) : findLabel N.toPyFloat mid = none := by
  induction h with
  | nil => rfl
  | num w ms hp ht hs ih =>
    cases ms with
    | nil =>
      rw [findLabel, if_neg (fun h => ht ((tag_iff w).1 h)), if_pos (by unfold strIsFloat; exact hp)]
    | cons a b =>
      rw [findLabel, if_neg (fun h => ht ((tag_iff w).1 h)), if_pos (by unfold strIsFloat; exact hp)]
      exact ih
  | tag w x ms ht _ ih =>
    rw [findLabel, if_pos ((tag_iff w).2 ht)]
    exact ih

/-! ### lines -/

theorem find_notMem (c : Char) (s : Str) (h : c ∉ s) : find [c] s = none := by
  induction s with
  | nil => rfl
  | cons x s ih =>
    simp at h
    rw [find, if_neg (by simp [List.isPrefixOf, h.1]), ih h.2]; rfl

theorem clean_comma (l : Str) (h : ',' ∉ l) : ',' ∉ cleanLine l := by
  rw [cleanLine_eq]
  intro hc
  have : ∀ ws : List Str, ',' ∈ joinWith [' '] ws → ∃ w ∈ ws, ',' ∈ w := by
    intro ws
    induction ws with
    | nil => intro h; simp [joinWith] at h
    | cons w ws ih =>
      intro h
      cases hw : ws with
      | nil => subst hw; simp [joinWith] at h; exact ⟨w, by simp, h⟩
      | cons a b =>
        rw [joinWith_cons _ _ _ (by rw [hw]; simp)] at h
        simp at h
        rcases h with h | h
        · exact ⟨w, by simp, h⟩
        · obtain ⟨x, hx, hxc⟩ := ih h
          exact ⟨x, by rw [← hw]; simp [hx], hxc⟩
  obtain ⟨w, hw, hwc⟩ := this _ hc
  exact h (words_mem l w hw _ hwc)

/-- the beginning of `parseLine` on a line that starts with the text `t` -/
theorem line_start (raw t : Str) (ws more : List Str) (hraw : words raw = ws ++ more) (ht : TextOK t ws) :
    isCommentText (cleanLine raw) = false ∧ mergeValue (splitOn ' ' (cleanLine raw)) = .ok (t, more) := by
  have hw : ∀ w ∈ ws ++ more, IsWord w := by rw [← hraw]; exact words_isWord raw
  have hline : cleanLine raw = joinWith [' '] (ws ++ more) := by rw [cleanLine_eq, hraw]
  have htne : t ≠ [] := by
    intro e
    have := ht.notComment
    rw [e] at this
    simp [isCommentText] at this
  constructor
  · by_cases hm : more = []
    · rw [hline, hm, List.append_nil, ← ht.eq]; exact ht.notComment
    · rw [hline, joinWith_append _ _ _ ht.ne hm, ← ht.eq]
      have := isComment_append t (joinWith [' '] more) htne ht.notComment
      simpa using this
  · rw [hline, splitOn_join _ _ (by simp [ht.ne]) (fun w h => (hw w h).space)]
    exact mergeValue_spec t ws more ht

theorem isEndOf_false (raw : Str) (h : NotEnd raw) : isEndOf (cleanLine raw) = false := by
  unfold isEndOf
  rw [Bool.eq_false_iff]
  intro he
  simp only [Bool.and_eq_true, beq_iff_eq, decide_eq_true_eq] at he
  obtain ⟨h1, h2, h3⟩ := he
  have hw : words (cleanLine raw) = words raw := by
    rw [cleanLine_eq, words_join _ (words_isWord raw)]
  rw [hw] at h2 h3
  cases hwr : words raw with
  | nil => rw [hwr] at h3; simp at h3
  | cons a r =>
    cases r with
    | nil => rw [hwr] at h3; simp at h3
    | cons b r =>
      rw [hwr] at h3
      simp at h3
      refine h a b r hwr ?_ h3
      rw [cleanLine_eq, hwr, joinWith_cons_head _ _ (by simp)] at h1
      have h1 := List.isPrefixOf_iff_prefix.1 h1
      have e : lower (a ++ ' ' :: joinWith [' '] (b :: r)) = lower a ++ ' ' :: lower (joinWith [' '] (b :: r)) := by
        simp [lower]
      rw [e] at h1
      generalize lower (joinWith [' '] (b :: r)) = U at h1
      generalize lower a = A at h1
      match A with
      | [] => exfalso; simp at h1
      | [a] => exfalso; simp at h1
      | [a, b] => exfalso; simp at h1
      | a :: b :: c :: A =>
        simp at h1 ⊢
        exact h1

theorem listPart_none (P : PyFloat) (l : Str) (h : ',' ∉ l) : listPart P (cleanLine l) = .ok ([], []) := by
  unfold listPart
  rw [find_notMem _ _ (clean_comma l h)]

theorem lower_quote (t : Str) (h : t.head? = some '"') : ¬ startsWith (lower t) "end".toList = true := by
  cases t with
  | nil => cases h
  | cons a r =>
    injection h with h; subst h
    simp [lower, startsWith]

/-- a line `value label` without comma, or with the label next to the value -/
theorem parse_text (hP : N.toPyFloat.Lawful) (allow : Bool) (l t : Str) (ws mid : List Str) (lab : Str) (rest : List Str)
    (v : Val N.F) (hw : words l = ws ++ (mid ++ lab :: rest)) (ht : TextOK t ws) (hs : Skip N mid)
    (hm : mid = [] ∨ ',' ∉ l) (hend : NotEnd l) (hl : LabelOK N.toPyFloat lab)
    (hv : scalarOf N.toPyFloat allow t (mid ++ lab :: rest) = v) :
    parseLine N.toPyFloat allow l = .ok ⟨lab, .scalar v, false, joinWith [' '] rest, 0⟩ := by
  rcases hm with rfl | hc
  · refine parse_scalar N.toPyFloat hP allow l t ws lab rest v hw ht hl hv ?_
    intro he
    rcases ht.shape with ⟨_, _, w, rfl⟩ | ⟨hq, _⟩
    · have e : t = w := by simpa [joinWith] using ht.eq
      subst e
      exact hend t lab rest hw (List.isPrefixOf_iff_prefix.1 he)
    · exact absurd he (lower_quote t hq)
  · obtain ⟨h1, h2⟩ := line_start l t ws _ hw ht
    unfold parseLine
    simp only [h1]
    rw [if_neg (by simp), listPart_none _ _ hc]
    simp only [valueAndSplits]
    rw [if_neg (by simp), h2]
    simp only
    rw [findLabel_skip mid hs lab rest hl]
    simp only [isEndOf_false l hend, hv, strip_word hl.word]

theorem parse_keyLine (hP : N.toPyFloat.Lawful) (allow : Bool) (b : List (Seen N.F)) (ha : allow = true → KpSeen b)
    (l lab : Str) (v : Val N.F) (h : KeyLine N b l lab v) :
    ∃ de, parseLine N.toPyFloat allow l = .ok ⟨lab, .scalar v, false, de, 0⟩ := by
  obtain ⟨t, ws, mid, rest, hw, ht, hm, hs, hc, hend, hsec, hl, hk⟩ := h
  have hlab := (label_ok lab hl).1
  refine ⟨_, parse_text hP allow l t ws mid lab rest v hw ht hs hc hend hlab ?_⟩
  refine means_scalar hP allow t v hm _ ?_
  intro hal hi w hw
  cases mid with
  | nil =>
    simp at hw
    subst hw
    intro hil
    have := notInt_of_parse hP lab hlab.float
    rw [(intText_iff lab).2 hil] at this
    cases this
  | cons a r =>
    simp at hw
    subst hw
    exact hk (ha hal) hi a rfl

theorem intText_text (t : Str) (h : IntText t) (hw : IsWord t) : TextOK t [t] ∧ ¬ "end".toList <+: lower t := by
  obtain ⟨sg, ds, rfl, hs, hne, hd⟩ := h
  have hcomma : ',' ∉ sg ++ ds := by
    intro hm
    rcases List.mem_append.1 hm with hm | hm
    · simp at hs
      rcases hs with rfl | rfl | rfl <;> simp at hm
    · exact (digit_facts ',' (hd _ hm)).2.1 rfl
  obtain ⟨d, r, rfl⟩ := List.exists_cons_of_ne_nil hne
  have hf := digit_facts d (hd d (by simp))
  have hfr : ∀ c, r.head? = some c → c ≠ '-' ∧ c ≠ '=' := by
    intro c hc
    have hcr : c ∈ r := List.mem_of_mem_head? hc
    have := digit_facts c (hd c (by simp [hcr]))
    exact ⟨this.2.2.2.1, this.2.2.2.2.2.2.2.1⟩
  simp at hs
  have hq : (sg ++ d :: r).head? ≠ some '"' ∧ isCommentText (sg ++ d :: r) = false ∧ ¬ "end".toList <+: lower (sg ++ d :: r) := by
    have hlow : ∀ x : Char, x.isDigit = true → x.toLower ≠ 'e' := by
      intro x hx
      have : x.toLower = x := by
        unfold Char.toLower
        have h1 : 48 ≤ x.toNat ∧ x.toNat ≤ 57 := by
          simp only [Char.isDigit, Bool.and_eq_true, decide_eq_true_eq] at hx
          exact ⟨hx.1, hx.2⟩
        have v : x.toNat = x.val.toNat := rfl
        rw [dif_neg]
        intro h
        have := UInt32.le_iff_toNat_le.1 h.1
        simp at this
        omega
      rw [this]
      exact (digit_facts x hx).2.2.2.2.2.2.2.2.1
    have hld := hlow d (hd d (by simp))
    rcases hs with rfl | rfl | rfl
    · refine ⟨?_, ?_, ?_⟩
      · simp [hf.2.2.1]
      · simp [isCommentText, startsWith, List.isPrefixOf, hf.2.2.2.1, hf.2.2.2.2.2.1, hf.2.2.2.2.2.2.1, hf.2.2.2.2.2.2.2.1]
        exact ⟨⟨⟨fun h => hf.2.2.2.2.2.1 h.symm, fun h => hf.2.2.2.2.2.2.1 h.symm⟩, fun h => absurd h.symm hf.2.2.2.1⟩,
          fun h => absurd h.symm hf.2.2.2.2.2.2.2.1⟩
      · intro h
        simp [lower] at h
        exact hld h.1.symm
    · refine ⟨by simp, ?_, ?_⟩
      · simp [isCommentText, startsWith, List.isPrefixOf]
      · intro h
        have e : lower (['+'] ++ d :: r) = '+' :: lower (d :: r) := rfl
        rw [e] at h
        simp at h
    · refine ⟨by simp, ?_, ?_⟩
      · simp [isCommentText, startsWith, List.isPrefixOf]
        exact fun h => hf.2.2.2.1 h.symm
      · intro h
        have e : lower (['-'] ++ d :: r) = '-' :: lower (d :: r) := rfl
        rw [e] at h
        simp at h
  exact ⟨⟨by simp [joinWith], by simp, by simpa using hw, hq.2.1, Or.inl ⟨hq.1, hcomma, _, rfl⟩⟩, hq.2.2⟩

theorem parse_pairLine (hP : N.toPyFloat.Lawful) (l x y lab : Str) (h : PairLine N l x y lab) :
    ∃ de, parseLine N.toPyFloat true l = .ok ⟨lab, .scalar (.str (x ++ ' ' :: y)), false, de, 0⟩ := by
  obtain ⟨mid, rest, hw, hx, hy, hs, hc, hsec, hl⟩ := h
  have hlab := (label_ok lab hl).1
  have hwx : IsWord x := words_isWord l x (by rw [hw]; simp)
  have hwy : IsWord y := words_isWord l y (by rw [hw]; simp)
  obtain ⟨htx, hne⟩ := intText_text x hx hwx
  have hy' := (intText_iff y).2 hy
  have hyp := hP.parse_int y hy'
  have htag : ¬ Tag y := by
    rintro ⟨h1, _⟩
    obtain ⟨sg, ds, rfl, hsg, hdne, hd⟩ := hy
    obtain ⟨d, r, rfl⟩ := List.exists_cons_of_ne_nil hdne
    simp at hsg
    rcases hsg with rfl | rfl | rfl
    · simp at h1
      exact (digit_facts d (hd d (by simp))).2.2.2.2.2.2.1 h1
    · simp at h1
    · simp at h1
  refine ⟨_, parse_text hP true l x [x] (y :: mid) lab rest _ (by rw [hw]; rfl) htx (.num y mid hyp htag hs) (Or.inr hc) ?_ hlab ?_⟩
  · intro a b r hab he
    rw [hw] at hab
    injection hab with h1 _
    rw [← h1] at he
    exact absurd he hne
  · unfold scalarOf
    rw [if_pos ((intText_iff x).2 hx)]
    simp [hy']

theorem parse_loneLine (hP : N.toPyFloat.Lawful) (allow : Bool) (l : Str) (h : LoneLine N l) :
    parseLine N.toPyFloat allow l = .ok ⟨[], .scalar (.str l), true, [], 0⟩ := by
  obtain ⟨t, ws, mid, hw, ht, hs, hc, hsec⟩ := h
  obtain ⟨h1, h2⟩ := line_start l t ws _ hw ht
  unfold parseLine
  simp only [h1]
  rw [if_neg (by simp), listPart_none _ _ hc]
  simp only [valueAndSplits]
  rw [if_neg (by simp), h2]
  simp only
  rw [findLabel_lone mid hs]

theorem withCommas_eq (ts : List Str) : withCommas ts = commaWords ts := by
  induction ts with
  | nil => rfl
  | cons t ts ih =>
    cases ts with
    | nil => rfl
    | cons a b => rw [withCommas, ih]; rfl; simp

theorem parse_listLine (hP : N.toPyFloat.Lawful) (allow : Bool) (l lab : Str) (vs : List (Val N.F))
    (h : ListLine N l lab vs) :
    ∃ de, parseLine N.toPyFloat allow l = .ok ⟨lab, .list vs, false, de, 0⟩ := by
  obtain ⟨ts, rest, hw, hlen, hts, hsec, hl, hfirst⟩ := h
  have hlab := (label_ok lab hl).1
  have hit : (∀ t ∈ ts, ItemOK N.toPyFloat t) ∧ ts.map (listItem N.toPyFloat) = vs := by
    clear hw hlen hfirst
    induction hts with
    | nil => simp
    | cons h1 _ ih =>
      obtain ⟨a, b⟩ := means_item hP _ _ h1
      refine ⟨?_, by rw [List.map_cons, b, ih.2]⟩
      intro t ht
      rcases List.mem_cons.1 ht with rfl | ht
      · exact a
      · exact ih.1 t ht
  have := parse_list N.toPyFloat allow l ts lab rest (by rw [hw, withCommas_eq]) hlen hit.1 hlab ?_ ?_
  · rw [hit.2] at this; exact ⟨_, this⟩
  · intro t ht
    obtain ⟨a, b, c, d, e, _, _⟩ := hfirst t ht
    refine ⟨a, ?_⟩
    have htm : t ∈ ts := List.mem_of_mem_head? ht
    have hne := (hit.1 t htm).word.1
    unfold isCommentText startsWith
    have h1 : "--".toList.isPrefixOf t = false := by
      rw [Bool.eq_false_iff]; exact fun h => d (List.isPrefixOf_iff_prefix.1 h)
    have h2 : "==".toList.isPrefixOf t = false := by
      rw [Bool.eq_false_iff]; exact fun h => e (List.isPrefixOf_iff_prefix.1 h)
    rw [h1, h2]
    cases t with
    | nil => exact absurd rfl hne
    | cons x r =>
      simp at b c
      have b' : ¬ '#' = x := fun h => b h.symm
      have c' : ¬ '!' = x := fun h => c h.symm
      simp [List.isPrefixOf, b', c']
  · intro t ht
    obtain ⟨_, _, _, _, _, f, g⟩ := hfirst t ht
    exact ⟨f, g⟩

end Verif.FastRead
