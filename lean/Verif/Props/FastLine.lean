import Verif.Lemmas.FastLine
/-!
# C11 and C14

Model: `Verif/Model/FastLine.lean`; hypotheses: `Verif/Spec/FastLine.lean`.
-/
namespace Verif.FastLine
open Verif.Py Verif.FastDict

/-! ### A concrete `PyFloat` for the examples

Floats are texts `d…d.d…d` with an optional sign. -/

/-- digits, a dot, digits -/
def isDec (s : Str) : Bool :=
  s.length ≥ 2 && s.all (fun c => c.isDigit || c == '.') && s.any (· == '.')
    && (s.head?.map Char.isDigit).getD false

/-- a decimal text with an optional minus sign -/
def isSDec : Str → Bool
  | [] => false
  | c :: r => if c = '-' then isDec r else isDec (c :: r)

/-- toy floats -/
def toy : PyFloat where
  F := { s : Str // isSDec s = true }
  parse s := if h : isSDec s = true then some ⟨s, h⟩
    else if strIsInt s then some ⟨"0.0".toList, by decide⟩ else none
  repr x := x.1

theorem isDec_cons {s : Str} (h : isDec s = true) :
    ∃ c r, s = c :: r ∧ c.isDigit = true ∧ (∀ x ∈ s, x.isDigit = true ∨ x = '.') ∧ '.' ∈ s := by
  unfold isDec at h
  simp only [Bool.and_eq_true, List.all_eq_true, List.any_eq_true, Bool.or_eq_true, beq_iff_eq] at h
  obtain ⟨⟨⟨_, h2⟩, h3⟩, h4⟩ := h
  cases s with
  | nil => simp at h4
  | cons c r =>
    obtain ⟨x, hx, rfl⟩ := h3
    exact ⟨c, r, rfl, by simpa using h4, h2, hx⟩

theorem isDec_facts {s : Str} (h : isDec s = true) :
    IsWord s ∧ ',' ∉ s ∧ isDigits s = false := by
  obtain ⟨c, r, hs, hd, hall, hdot⟩ := isDec_cons h
  refine ⟨⟨by simp [hs], ?_⟩, ?_, ?_⟩
  · intro x hx
    rcases hall x hx with h | h
    · exact (digit_facts x h).1
    · subst h; decide
  · intro hx
    rcases hall _ hx with h | h
    · exact (digit_facts _ h).2.1 rfl
    · exact absurd h (by decide)
  · rw [Bool.eq_false_iff]
    intro hh
    simp only [isDigits, Bool.and_eq_true, List.all_eq_true] at hh
    exact absurd (hh.2 _ hdot) (by decide)

theorem toy_lawful : toy.Lawful := by
  refine ⟨?_, ?_, ?_, ?_, ?_, ?_, ?_, ?_, ?_⟩
  · rintro ⟨s, h⟩; simp [toy, h]
  · rintro ⟨s, h⟩
    show IsWord s
    cases s with
    | nil => simp [isSDec] at h
    | cons c r =>
      simp only [isSDec] at h
      split at h
      · next hc =>
        subst hc
        refine ⟨by simp, ?_⟩
        intro x hx
        rcases List.mem_cons.1 hx with rfl | hx
        · decide
        · exact (isDec_facts h).1.2 x hx
      · exact (isDec_facts h).1
  · rintro ⟨s, h⟩
    show ',' ∉ s
    cases s with
    | nil => simp
    | cons c r =>
      simp only [isSDec] at h
      split at h
      · next hc =>
        subst hc
        intro hx
        rcases List.mem_cons.1 hx with hx | hx
        · exact absurd hx (by decide)
        · exact (isDec_facts h).2.1 hx
      · exact (isDec_facts h).2.1
  · rintro ⟨s, h⟩
    show ∃ c r, s = c :: r ∧ _
    cases s with
    | nil => simp [isSDec] at h
    | cons c r =>
      simp only [isSDec] at h
      refine ⟨c, r, rfl, ?_⟩
      split at h
      · next hc =>
        obtain ⟨d, q, hr, hd, _⟩ := isDec_cons h
        refine Or.inr (Or.inr (Or.inr ⟨hc, ?_⟩))
        rw [hr]; simp [(digit_facts d hd).2.2.2.1]
      · obtain ⟨d, q, hr, hd, _⟩ := isDec_cons h
        simp at hr
        exact Or.inl (hr.1 ▸ hd)
  · rintro ⟨s, h⟩
    show strIsInt s = false
    cases s with
    | nil => rfl
    | cons c r =>
      simp only [isSDec] at h
      split at h
      · next hc => simp [strIsInt, hc, (isDec_facts h).2.2]
      · next hc =>
        obtain ⟨d, q, hr, hd, _⟩ := isDec_cons h
        simp at hr
        have hp : ¬ c = '+' := by rw [hr.1]; exact (digit_facts d hd).2.2.2.2.1
        simp [strIsInt, hc, hp, (isDec_facts h).2.2]
  · intro s h
    simp only [toy]
    split
    · rfl
    · simp
  · intro s
    have h1 : isSDec ('"' :: s) = false := by
      have hq : ('"' : Char).isDigit = false := by decide
      simp [isSDec, isDec, hq]
    have h2 : strIsInt ('"' :: s) = false := by
      have hq : ('"' : Char).isDigit = false := by decide
      simp [strIsInt, isDigits, hq]
    simp [toy, h1, h2]
  · decide
  · decide

/-! ### C11 -/

/-- **C11 (scalars).** Writing a scalar entry and parsing the line gives back the
label and the value exactly, whatever the description; the description read is
a dash followed by the words of the description stripped of its surrounding
blanks and dashes.  Missing from the full statement: the description itself
comes back with a leading dash (see `C11_fails`) and with single blanks. -/
theorem C11_scalar_partial (P : PyFloat) (hP : P.Lawful) (allow : Bool) (lab descr : Str) (v : Val P.F)
    (hl : LabelOK P lab) (hv : ScalarOK P lab v) :
    parseLine P allow (entryText P ⟨lab, .scalar v, false, descr, 0⟩)
      = .ok ⟨lab, .scalar v, false, joinWith [' '] ("-".toList :: words (descrText descr)), 0⟩ := by
  have hE : entryText P ⟨lab, .scalar v, false, descr, 0⟩ = strip (toStringVLD P v lab descr) := rfl
  rw [hE]
  have hli : strIsInt lab = false := by
    rw [Bool.eq_false_iff]
    intro h
    have := hP.parse_int lab h
    rw [hl.float] at this; simp at this
  by_cases hn : IsNum v
  · have hN := numText_show P hP v hn
    refine parse_scalar P hP allow _ (showVal P v) [showVal P v] lab _ v ?_ hN.textOK hl
      (scalarOf_num P hP allow v hn lab _ hl) ?_
    · rw [words_vld, words_word hN.word, words_word hl.word]; rfl
    · intro h
      exfalso
      obtain ⟨c, r, hc⟩ := List.exists_cons_of_ne_nil hN.word.1
      have h1 := hN.noE
      rw [hc] at h h1
      simp [lower, startsWith] at h
      simp at h1
      have h2 := h.1
      unfold Char.toLower at h2
      split at h2
      · next hcond =>
        apply h1.2
        apply Char.ext
        apply UInt32.toNat_inj.1
        have h3 := congrArg Char.toNat h2
        have h5 : (c.val + ('a'.val - 'A'.val)).toNat = 101 := h3.symm
        rw [UInt32.toNat_add] at h5
        have h6 : ('a'.val - 'A'.val).toNat = 32 := by decide
        rw [h6] at h5
        have h7 : ('E' : Char).val.toNat = 69 := rfl
        have hb : c.val.toNat ≤ 90 := hcond.2
        omega
      · exact h1.1 h2.symm
  · cases v with
    | str s =>
      obtain ⟨hs, hend⟩ := hv
      refine parse_scalar P hP allow _ s (words s) lab _ (.str s) ?_ hs.text hl ?_ hend
      · rw [words_vld, words_word hl.word]; simp [showVal]
      · simp [scalarOf, hs.notInt, hs.notFloat, hs.notBool]
    | int n => exact absurd trivial hn
    | flt x => exact absurd trivial hn
    | bool b => exact absurd trivial hn

/-- **C11 (lists).** Writing a list of at least two numbers or logicals and
parsing the line gives back the label and the list exactly, and the words of the
description. -/
theorem C11_list_partial (P : PyFloat) (hP : P.Lawful) (allow : Bool) (lab descr : Str) (vs : List (Val P.F))
    (hl : LabelOK P lab) (hv : ListOK P vs) :
    parseLine P allow (entryText P ⟨lab, .list vs, false, descr, 0⟩)
      = .ok ⟨lab, .list vs, false, joinWith [' '] (words descr), 0⟩ := by
  obtain ⟨hlen, hnum, hfirst⟩ := hv
  have hE : entryText P ⟨lab, .list vs, false, descr, 0⟩
      = joinWith ", ".toList (vs.map (showVal P)) ++ ' ' :: (lab ++ ' ' :: descr) := by
    simp [entryText]
  have hitems : ∀ t ∈ vs.map (showVal P), ItemOK P t := by
    intro t ht
    obtain ⟨v, hv, rfl⟩ := List.mem_map.1 ht
    exact itemOK_show P hP v (hnum v hv)
  have hne : vs.map (showVal P) ≠ [] := by
    intro e; simp at e; simp [e] at hlen
  have hback : (vs.map (showVal P)).map (listItem P) = vs := by
    rw [List.map_map]
    conv => rhs; rw [← List.map_id vs]
    apply List.map_congr_left
    intro v hv
    exact listItem_show P hP v (hnum v hv)
  have hhead : ∀ t, (vs.map (showVal P)).head? = some t → ∃ v ∈ vs, showVal P v = t ∧ t.length < 30 := by
    intro t ht
    cases vs with
    | nil => simp at ht
    | cons v vs =>
      simp at ht
      exact ⟨v, by simp, ht, ht ▸ hfirst v rfl⟩
  have := parse_list P allow (joinWith ", ".toList (vs.map (showVal P)) ++ ' ' :: (lab ++ ' ' :: descr))
    (vs.map (showVal P)) lab (words descr)
    (by rw [words_commaJoin _ _ hne (fun t ht => (hitems t ht).word), words_word_cons hl.word _ _ isWs_space])
    (by simpa using hlen) hitems hl
    (by
      intro t ht
      obtain ⟨v, hv, rfl, hlt⟩ := hhead t ht
      exact ⟨hlt, (numText_show P hP v (hnum v hv)).notComment⟩)
    (by
      intro t ht
      obtain ⟨v, hv, rfl, _⟩ := hhead t ht
      exact (numText_show P hP v (hnum v hv)).noE)
  rw [hE, this, hback]

/-- the entry `1 a` described by `x`: well formed, but its description comes
back as `- x`; and a two-word string without quotes loses its second word, a
one-element list comes back as a number, and the value of an empty list is lost. -/
theorem C11_fails (P : PyFloat) (hP : P.Lawful) (ha : P.parse "Lab".toList = none) :
    ¬ (∀ (d : Entry (EVal P.F)), d.isComment = false → d.tabType = 0 → LabelOK P d.label →
        parseLine P false (entryText P d) = .ok d) := by
  intro h
  have hl : LabelOK P "Lab".toList := ⟨⟨by decide, by decide⟩, by decide, ha, by decide, by decide⟩
  have h1 := h ⟨"Lab".toList, .scalar (.int 1), false, "x".toList, 0⟩ rfl rfl hl
  rw [C11_scalar_partial P hP false _ _ (.int 1) hl trivial] at h1
  injection h1 with h1
  injection h1 with _ _ _ h1
  revert h1
  decide

/-- further failures of the round trip, on values: a string of two words without
quotes, and a list of one element. -/
theorem C11_value_fails :
    (∃ r, parseLine toy false (entryText toy ⟨"Lab".toList, .scalar (.str "my file".toList), false, [], 0⟩) = .ok r
      ∧ r.label = "file".toList) ∧
    (∃ r, parseLine toy false (entryText toy ⟨"Lab".toList, .list [.int 1], false, [], 0⟩) = .ok r
      ∧ r.label = "Lab".toList ∧ ∃ n, r.value = .scalar (.int n)) := by
  refine ⟨⟨_, rfl, ?_⟩, ⟨_, rfl, ?_, ?_⟩⟩
  · decide
  · decide
  · exact ⟨1, rfl⟩

/-- non-vacuity of `C11_scalar_partial`: a quoted file name with a blank and a
comma. -/
example : ScalarOK toy "InflowFile".toList (.str "\"my wind, v2.dat\"".toList)
    ∧ LabelOK toy "InflowFile".toList := by
  refine ⟨⟨⟨⟨by decide, by decide, ?_, by decide, Or.inr ⟨by decide, ["\"my".toList, "wind,".toList],
    "v2.dat\"".toList, by decide, by decide, by decide⟩⟩, by decide, by decide, by decide⟩, by decide⟩,
    ⟨⟨by decide, by decide⟩, by decide, by decide, by decide, by decide⟩⟩
  exact words_isWord _

example : parseLine toy false (entryText toy
    ⟨"InflowFile".toList, .scalar (.str "\"my wind, v2.dat\"".toList), false, "- Name, (quoted string)".toList, 0⟩)
    = .ok ⟨"InflowFile".toList, .scalar (.str "\"my wind, v2.dat\"".toList), false,
        "- Name, (quoted string)".toList, 0⟩ := rfl

example : ListOK toy [.int 3, .flt ⟨"-0.5".toList, by decide⟩, .bool true] := by
  refine ⟨by simp, ?_, ?_⟩
  · intro v hv; simp at hv; rcases hv with rfl | rfl | rfl <;> trivial
  · intro v hv; simp at hv; subst hv; decide

/-! ### C14 -/

/-- a line ending a channel list: starts with `END` in any case. -/
def IsEnd (l : Str) : Prop := startsWith (upper l) "END".toList = true

theorem parseOutList_ok (chans rest : List Str) (e : Str) (n : Nat) (hlen : n + chans.length ≤ 200)
    (h : ∀ c ∈ chans, ¬ IsEnd c) (he : IsEnd e) : parseOutList n (chans ++ e :: rest) = .ok chans := by
  induction chans generalizing n with
  | nil => rw [List.nil_append, parseOutList]; exact if_pos he
  | cons c chans ih =>
    have hc : ¬ startsWith (upper c) "END".toList = true := h c (by simp)
    simp only [List.length_cons] at hlen
    rw [List.cons_append, parseOutList, if_neg hc, if_neg (by omega), ih (n + 1) (by omega) (fun c hc => h c (by simp [hc]))]

theorem parseOutList_long (chans rest : List Str) (n : Nat) (hlen : 200 < n + chans.length) (hn : n ≤ 200)
    (h : ∀ c ∈ chans, ¬ IsEnd c) : parseOutList n (chans ++ rest) = .error .other := by
  induction chans generalizing n with
  | nil => simp at hlen; omega
  | cons c chans ih =>
    have hc : ¬ startsWith (upper c) "END".toList = true := h c (by simp)
    simp only [List.length_cons] at hlen
    rw [List.cons_append, parseOutList, if_neg hc]
    by_cases h2 : n + 1 > 200
    · rw [if_pos h2]
    · rw [if_neg h2, ih (n + 1) (by omega) (by omega) (fun c hc => h c (by simp [hc]))]

/-- **C14 (reading).** A channel list of at most 200 lines ended by an `END` line
is read exactly, in order, whatever follows; with more than 200 lines the
reader raises. Missing: an unterminated list does not raise (`C14_fails`). -/
theorem C14_read_partial (chans rest : List Str) (h : ∀ c ∈ chans, ¬ IsEnd c) :
    (∀ e, IsEnd e → chans.length ≤ 200 → parseOutList 0 (chans ++ e :: rest) = .ok chans) ∧
    (200 < chans.length → parseOutList 0 (chans ++ rest) = .error .other) :=
  ⟨fun e he hl => parseOutList_ok chans rest e 0 (by omega) h he,
   fun hl => parseOutList_long chans rest 0 (by omega) (by omega) h⟩

/-- **C14.** Whatever the file, a successful read returns a prefix of the lines,
none of which is an `END` line, at most 200 lines, and stops only at an `END`
line or at the end of the file. -/
theorem C14_exact (lines r : List Str) (n : Nat) (hn : n ≤ 200) (h : parseOutList n lines = .ok r) :
    (∀ c ∈ r, ¬ IsEnd c) ∧ n + r.length ≤ 200 ∧
    (lines = r ∨ ∃ e rest, lines = r ++ e :: rest ∧ IsEnd e) := by
  induction lines generalizing n r with
  | nil => simp [parseOutList] at h; subst h; simpa using hn
  | cons l lines ih =>
    rw [parseOutList] at h
    split at h
    · next he =>
      injection h with h; subst h
      exact ⟨by simp, by simpa using hn, Or.inr ⟨l, lines, rfl, he⟩⟩
    · next he =>
      split at h
      · simp at h
      · next h2 =>
        split at h
        · next r' hr =>
          injection h with h; subst h
          obtain ⟨h1, h3, h4⟩ := ih r' (n + 1) (by omega) hr
          refine ⟨?_, by simp; omega, ?_⟩
          · intro c hc
            rcases List.mem_cons.1 hc with rfl | hc
            · exact he
            · exact h1 c hc
          · rcases h4 with h4 | ⟨e, rest, h4, h5⟩
            · exact Or.inl (by rw [h4])
            · exact Or.inr ⟨e, rest, by rw [h4]; rfl, h5⟩
        · simp at h

/-- C14's last part fails: a list without `END` line is returned (a warning is
printed), it does not raise. -/
theorem C14_fails : ¬ (∀ lines : List Str, (∀ l ∈ lines, ¬ IsEnd l) → ∃ e, parseOutList 0 lines = .error e) := by
  intro h
  obtain ⟨e, he⟩ := h ["GenPwr".toList] (by simp [IsEnd]; decide)
  revert he
  have : parseOutList 0 ["GenPwr".toList] = .ok ["GenPwr".toList] := by rfl
  rw [this]; simp

example : (∀ c ∈ ["\"GenPwr\"".toList, "RotSpeed - rpm".toList], ¬ IsEnd c) ∧ IsEnd "END of list".toList := by
  refine ⟨?_, by unfold IsEnd; decide⟩
  intro c hc
  simp at hc
  rcases hc with rfl | rfl <;> (unfold IsEnd; decide)

end Verif.FastLine
