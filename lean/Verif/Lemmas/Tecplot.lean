import Verif.Spec.TecplotFile
import Verif.Lemmas.Str
import Mathlib.Tactic
/-! # Lemmas on Tecplot files -/
namespace Verif.Tecplot
open Verif.Py

/-! ### Characters and stripping -/

theorem isWs_toLower (d : Char) : isWs d.toLower = isWs d := by
  by_cases h : 65 ≤ d.toNat ∧ d.toNat ≤ 90
  · have h1 : ∀ n, 65 ≤ n → n ≤ 90 → isWs (Char.ofNat n).toLower = isWs (Char.ofNat n) := by decide
    have := h1 d.toNat h.1 h.2
    rwa [Char.ofNat_toNat] at this
  · unfold Char.toLower
    split
    · rename_i hh
      exact absurd ⟨hh.1, hh.2⟩ h
    · rfl

theorem isWord_lower {w : Str} (h : IsWord w) : IsWord (lower w) := by
  refine ⟨?_, ?_⟩
  · simp only [lower, ne_eq, List.map_eq_nil_iff]; exact h.1
  · intro c hc
    obtain ⟨d, hd, rfl⟩ := List.mem_map.1 hc
    rw [isWs_toLower]; exact h.2 d hd

theorem rstripBy_word (w x : Str) (hw : IsWord w) : rstripBy isWs (w ++ x) = w ++ rstripBy isWs x := by
  unfold rstripBy
  rw [List.reverse_append, List.dropWhile_append]
  have hwr : w.reverse.dropWhile isWs = w.reverse := by
    cases hr : w.reverse with
    | nil => rfl
    | cons a r =>
      have : a ∈ w := by rw [← List.mem_reverse, hr]; simp
      rw [List.dropWhile_cons_of_neg (by simp [hw.2 a this])]
  split
  · rename_i h
    rw [List.isEmpty_iff] at h
    rw [hwr, h]; simp
  · simp

theorem strip_word_append (w x : Str) (hw : IsWord w) : strip (w ++ x) = w ++ rstripBy isWs x := by
  unfold strip stripBy
  have : lstripBy isWs (w ++ x) = w ++ x := by
    obtain ⟨hne, hc⟩ := hw
    cases w with
    | nil => exact absurd rfl hne
    | cons a w =>
      unfold lstripBy
      rw [List.cons_append, List.dropWhile_cons_of_neg (by simp [hc a])]
  rw [this, rstripBy_word _ _ hw]

theorem strip_cons_ws (c : Char) (s : Str) (hc : isWs c = true) : strip (c :: s) = strip s := by
  unfold strip stripBy lstripBy
  rw [List.dropWhile_cons_of_pos hc]

theorem strip_replicate (k : Nat) (s : Str) : strip (List.replicate k ' ' ++ s) = strip s := by
  induction k with
  | zero => simp
  | succ k ih => rw [List.replicate_succ, List.cons_append, strip_cons_ws _ _ isWs_space, ih]

theorem dropWhile_nil (p : Char → Bool) (s : Str) : s.dropWhile p = [] ↔ ∀ c ∈ s, p c = true := by
  induction s with
  | nil => simp
  | cons c s ih =>
    by_cases h : p c = true
    · rw [List.dropWhile_cons_of_pos h, ih]; simp [h]
    · rw [List.dropWhile_cons_of_neg h]; simp [h]

theorem dropWhile_twice (p : Char → Bool) (s : Str) : (s.dropWhile p).dropWhile p = s.dropWhile p := by
  induction s with
  | nil => rfl
  | cons c s ih =>
    by_cases h : p c = true
    · rw [List.dropWhile_cons_of_pos h, ih]
    · rw [List.dropWhile_cons_of_neg h, List.dropWhile_cons_of_neg h]

theorem rstripBy_idem (p : Char → Bool) (s : Str) : rstripBy p (rstripBy p s) = rstripBy p s := by
  unfold rstripBy
  rw [List.reverse_reverse, dropWhile_twice]

theorem strip_rstrip (s : Str) : strip (rstripBy isWs s) = strip s := by
  induction s with
  | nil => rfl
  | cons c s ih =>
    by_cases hc : isWs c = true
    · rw [strip_cons_ws _ _ hc, ← ih]
      by_cases hall : ∀ d ∈ s, isWs d = true
      · have e1 : rstripBy isWs (c :: s) = [] := by
          unfold rstripBy
          rw [List.reverse_eq_nil_iff, dropWhile_nil]
          intro d hd
          rw [List.mem_reverse] at hd
          rcases List.mem_cons.1 hd with rfl | hd
          · exact hc
          · exact hall d hd
        have e2 : rstripBy isWs s = [] := by
          unfold rstripBy
          rw [List.reverse_eq_nil_iff, dropWhile_nil]
          intro d hd
          exact hall d (List.mem_reverse.1 hd)
        rw [e1, e2]
      · have e1 : rstripBy isWs (c :: s) = c :: rstripBy isWs s := by
          unfold rstripBy
          rw [List.reverse_cons, List.dropWhile_append]
          rw [if_neg, List.reverse_append]
          · rfl
          · rw [List.isEmpty_iff, dropWhile_nil]
            intro h
            exact hall fun d hd => h d (List.mem_reverse.2 hd)
        rw [e1, strip_cons_ws _ _ hc]
    · have hw : IsWord [c] := ⟨by simp, by simpa using hc⟩
      have e := rstripBy_word [c] s hw
      rw [List.singleton_append] at e
      rw [e]
      have e1 := strip_word_append [c] (rstripBy isWs s) hw
      have e2 := strip_word_append [c] s hw
      rw [e1]
      rw [List.singleton_append] at e2
      rw [e2, rstripBy_idem]

theorem strip_count (s : Str) (c : Char) (hc : isWs c = false) : (strip s).count c = s.count c := by
  have h1 : ∀ s : Str, (rstripBy isWs s).count c = s.count c := by
    intro s
    obtain ⟨t, h1, h2⟩ := rstripBy_append isWs s
    conv => rhs; rw [h1]
    have : t.count c = 0 := by
      rw [List.count_eq_zero]
      intro hm; rw [h2 c hm] at hc; exact nomatch hc
    rw [List.count_append, this, Nat.add_zero]
  have h2 : ∀ s : Str, (lstripBy isWs s).count c = s.count c := by
    intro s
    unfold lstripBy
    induction s with
    | nil => rfl
    | cons a s ih =>
      by_cases ha : isWs a = true
      · rw [List.dropWhile_cons_of_pos ha, ih, List.count_cons_of_ne]
        rintro rfl; rw [ha] at hc; exact nomatch hc
      · rw [List.dropWhile_cons_of_neg ha]
  unfold strip stripBy
  rw [h1, h2]

/-! ### Replacements -/

theorem replaceChar_append (a : Char) (b s t : Str) :
    replaceChar a b (s ++ t) = replaceChar a b s ++ replaceChar a b t := by
  simp [replaceChar]

theorem replaceChar_cons (a : Char) (b : Str) (c : Char) (s : Str) :
    replaceChar a b (c :: s) = (if c = a then b else [c]) ++ replaceChar a b s := rfl

theorem replaceChar_none (a : Char) (b s : Str) (h : a ∉ s) : replaceChar a b s = s := by
  induction s with
  | nil => rfl
  | cons c s ih =>
    rw [replaceChar_cons, if_neg (by rintro rfl; simp at h), ih (by simp at h; exact h.2)]
    rfl

theorem mem_replaceChar (a : Char) (b s : Str) (c : Char) (h : c ∈ replaceChar a b s) : c ∈ s ∨ c ∈ b := by
  rw [replaceChar, List.mem_flatMap] at h
  obtain ⟨d, hd, hc⟩ := h
  split at hc
  · exact .inr hc
  · rw [List.mem_singleton] at hc; exact .inl (hc ▸ hd)

theorem collapse_cons_ne (c d : Char) (s : Str) (h : d ≠ c) : collapse c (d :: s) = d :: collapse c s := by
  cases s with
  | nil => rfl
  | cons b s => rw [collapse, if_neg (fun e => h e.1)]

theorem collapse_sep (c d : Char) (h : d ≠ c) (s t : Str) :
    collapse c (s ++ d :: t) = collapse c s ++ d :: collapse c t := by
  induction s using collapse.induct c with
  | case1 => exact collapse_cons_ne c d t h
  | case2 a =>
    show collapse c (a :: d :: t) = _
    have : collapse c (a :: d :: t) = a :: collapse c (d :: t) := by rw [collapse, if_neg (fun e => h e.2)]
    rw [this, collapse_cons_ne c d t h]; rfl
  | case3 a b s hab ih =>
    show collapse c (a :: b :: (s ++ d :: t)) = _
    rw [collapse, if_pos hab, ih, collapse, if_pos hab]; rfl
  | case4 a b s hab ih =>
    show collapse c (a :: b :: (s ++ d :: t)) = _
    rw [collapse, if_neg hab, collapse, if_neg hab]
    rw [List.cons_append] at ih
    rw [ih]; rfl

theorem collapse_mem (c : Char) (s : Str) (d : Char) (h : d ∈ collapse c s) : d ∈ s := by
  induction s using collapse.induct c with
  | case1 => exact h
  | case2 a => exact h
  | case3 a b s hab ih =>
    rw [collapse, if_pos hab] at h
    rcases List.mem_cons.1 h with rfl | h
    · simp [hab.1]
    · have := ih h; simp [this]
  | case4 a b s hab ih =>
    rw [collapse, if_neg hab] at h
    rcases List.mem_cons.1 h with rfl | h
    · simp
    · have := ih h; exact List.mem_cons_of_mem _ this

theorem collapse_head? (c : Char) (s : Str) : (collapse c s).head? = s.head? := by
  cases s with
  | nil => rfl
  | cons a s =>
    cases s with
    | nil => rfl
    | cons b s =>
      rw [collapse]
      split
      · rename_i h; simp [h.1]
      · rfl

theorem collapse_none (c : Char) (s : Str) (h : ¬ [c, c] <:+: s) : collapse c s = s := by
  induction s using collapse.induct c with
  | case1 => rfl
  | case2 a => rfl
  | case3 a b s hab ih =>
    exact absurd ⟨[], s, by simp [hab.1, hab.2]⟩ h
  | case4 a b s hab ih =>
    rw [collapse, if_neg hab, ih]
    rintro ⟨p, q, e⟩
    exact h ⟨a :: p, q, by rw [← e]; rfl⟩

/-! ### Quoted names -/

/-- quoted names with a separator -/
def Q (sep : Char) (ns : List Str) : Str := joinWith [sep] (ns.map quoted)

theorem Q_one (sep : Char) (n : Str) : Q sep [n] = '"' :: (n ++ ['"']) := rfl

theorem Q_cons (sep : Char) (n m : Str) (ns : List Str) :
    Q sep (n :: m :: ns) = '"' :: (n ++ '"' :: sep :: Q sep (m :: ns)) := by
  show quoted n ++ [sep] ++ Q sep (m :: ns) = _
  simp [quoted]

theorem Q_replace (a sep : Char) (b : Str) (sep' : Char) (ha : a ≠ '"')
    (hs : replaceChar a b [sep] = [sep']) (ns : List Str) :
    replaceChar a b (Q sep ns) = Q sep' (ns.map (replaceChar a b)) := by
  have hq : replaceChar a b ['"'] = ['"'] := replaceChar_none _ _ _ (by simpa using ha)
  induction ns with
  | nil => rfl
  | cons n ns ih =>
    cases ns with
    | nil =>
      rw [Q_one, List.map_singleton, Q_one, replaceChar_cons, if_neg (Ne.symm ha), replaceChar_append, hq]; rfl
    | cons m ns =>
      rw [Q_cons, List.map_cons, List.map_cons, Q_cons, replaceChar_cons, if_neg (Ne.symm ha), replaceChar_append]
      have e : '"' :: sep :: Q sep (m :: ns) = ['"'] ++ ([sep] ++ Q sep (m :: ns)) := rfl
      rw [e, replaceChar_append, replaceChar_append, hq, hs, ih]
      rfl

theorem Q_collapse (c sep : Char) (hc : c ≠ '"') (ns : List Str) :
    collapse c (Q sep ns) = Q sep (ns.map (collapse c)) := by
  have hh : ∀ t, collapse c ('"' :: t) = '"' :: collapse c t := fun t => collapse_cons_ne c _ t (Ne.symm hc)
  induction ns with
  | nil => rfl
  | cons n ns ih =>
    cases ns with
    | nil =>
      rw [Q_one, hh, collapse_sep _ _ (Ne.symm hc)]; rfl
    | cons m ns =>
      have hs : collapse c (sep :: Q sep (m :: ns)) = sep :: collapse c (Q sep (m :: ns)) := by
        have : ∃ t, Q sep (m :: ns) = '"' :: t := by
          cases ns with
          | nil => exact ⟨_, Q_one _ _⟩
          | cons k ns => exact ⟨_, Q_cons _ _ _ _⟩
        obtain ⟨t, ht⟩ := this
        rw [ht, collapse, if_neg (fun e => hc e.2.symm)]
      rw [Q_cons, hh, collapse_sep _ _ (Ne.symm hc), hs, ih]
      rw [List.map_cons, List.map_cons, List.map_cons, Q_cons]

theorem Q_ends (sep : Char) (ns : List Str) (hne : ns ≠ []) :
    (Q sep ns).head? = some '"' ∧ (Q sep ns).getLast? = some '"' := by
  induction ns with
  | nil => exact absurd rfl hne
  | cons n ns ih =>
    cases ns with
    | nil =>
      rw [Q_one]
      refine ⟨rfl, ?_⟩
      rw [← List.cons_append, List.getLast?_concat]
    | cons m ns =>
      rw [Q_cons]
      refine ⟨rfl, ?_⟩
      have := (ih (by simp)).2
      rw [List.getLast?_cons, List.getLast?_append, List.getLast?_cons, List.getLast?_cons, this]
      rfl

theorem strip_Q (sep : Char) (ns : List Str) (hne : ns ≠ []) : strip (Q sep ns) = Q sep ns := by
  obtain ⟨h1, h2⟩ := Q_ends sep ns hne
  have hq : isWs '"' = false := by decide
  apply stripBy_eq_self
  · intro c hc; rw [h1] at hc; injection hc with hc; rw [← hc]; exact hq
  · intro c hc; rw [h2] at hc; injection hc with hc; rw [← hc]; exact hq

theorem joinQ_cons_ne (a : Char) (s : Str) (h : a ≠ '"') : joinQ (a :: s) = a :: joinQ s := by
  rcases s with _ | ⟨b, _ | ⟨d, s⟩⟩
  · rfl
  · rfl
  · rw [joinQ, if_neg (fun e => h e.1)]

theorem joinQ_name (n t : Str) (hq : '"' ∉ n) : joinQ (n ++ t) = n ++ joinQ t := by
  induction n with
  | nil => rfl
  | cons a n ih =>
    simp only [List.mem_cons, not_or] at hq
    rw [List.cons_append, joinQ_cons_ne _ _ (Ne.symm hq.1), ih hq.2]; rfl

theorem joinQ_open (s : Str) (h : s.head? ≠ some ' ') : joinQ ('"' :: s) = '"' :: joinQ s := by
  rcases s with _ | ⟨b, _ | ⟨d, s⟩⟩
  · rfl
  · rfl
  · rw [joinQ, if_neg]
    rintro ⟨_, e, _⟩
    exact h (by rw [e]; rfl)

theorem joinQ_Q (ns : List Str) (hne : ns ≠ []) (hq : ∀ n ∈ ns, '"' ∉ n ∧ n.head? ≠ some ' ') :
    joinQ (Q ' ' ns) = '"' :: (joinWith [','] ns ++ ['"']) := by
  have key : ∀ ns : List Str, ns ≠ [] → (∀ n ∈ ns, '"' ∉ n ∧ n.head? ≠ some ' ') →
      ∃ t, Q ' ' ns = '"' :: t ∧ joinQ t = joinWith [','] ns ++ ['"'] := by
    intro ns hne hq
    induction ns with
    | nil => exact absurd rfl hne
    | cons n ns ih =>
      have hn := hq n (by simp)
      cases ns with
      | nil => exact ⟨_, Q_one _ _, by rw [joinQ_name _ _ hn.1]; rfl⟩
      | cons m ns =>
        obtain ⟨t, ht, hj⟩ := ih (by simp) (fun k hk => hq k (by simp [hk]))
        refine ⟨_, Q_cons _ _ _ _, ?_⟩
        rw [joinQ_name _ _ hn.1, ht, joinQ, if_pos ⟨rfl, rfl, rfl⟩, hj]
        simp [joinWith]
  cases ns with
  | nil => exact absurd rfl hne
  | cons n ns =>
    obtain ⟨t, ht, hj⟩ := key _ hne hq
    rw [ht, joinQ_open, hj]
    have hn := hq n (by simp)
    have : t.head? ≠ some ' ' := by
      cases ns with
      | nil =>
        rw [Q_one] at ht
        injection ht with _ ht
        rw [← ht]
        cases n with
        | nil => simp
        | cons a n => simpa using hn.2
      | cons m ns =>
        rw [Q_cons] at ht
        injection ht with _ ht
        rw [← ht]
        cases n with
        | nil => simp
        | cons a n => simpa using hn.2
    exact this

/-- what the reader makes of a name -/
def norm (n : Str) : Str :=
  collapse '_' (replaceChar '(' ['_', '('] (replaceChar '[' ['_', '['] (collapse ' ' n)))

theorem mem_norm (n : Str) (c : Char) (h : c ∈ norm n) : c ∈ n ∨ c ∈ ['_', '[', '('] := by
  have h1 := collapse_mem _ _ _ h
  rcases mem_replaceChar _ _ _ _ h1 with h2 | h2
  · rcases mem_replaceChar _ _ _ _ h2 with h3 | h3
    · exact .inl (collapse_mem _ _ _ h3)
    · right; revert h3; simp; tauto
  · right; revert h2; simp; tauto

theorem replaceChar_head? (a : Char) (b : Str) (s : Str) (hb : b.head? ≠ some ' ') (hb' : b ≠ [])
    (h : s.head? ≠ some ' ') : (replaceChar a b s).head? ≠ some ' ' := by
  cases s with
  | nil => simp [replaceChar]
  | cons c s =>
    rw [replaceChar_cons]
    split
    · cases b with
      | nil => exact absurd rfl hb'
      | cons x b => exact hb
    · exact h

theorem norm_head? (n : Str) (h : n.head? ≠ some ' ') : (norm n).head? ≠ some ' ' := by
  unfold norm
  rw [collapse_head?]
  apply replaceChar_head? _ _ _ (by decide) (by decide)
  apply replaceChar_head? _ _ _ (by decide) (by decide)
  rw [collapse_head?]
  exact h

/-- names the reader can separate -/
def NameOk (n : Str) : Prop :=
  '=' ∉ n ∧ ',' ∉ n ∧ '"' ∉ n ∧ '\n' ∉ n ∧ n.head? ≠ some ' '

theorem procVars_written (ns : List Str) (hne : ns ≠ []) (hok : ∀ n ∈ ns, NameOk n) :
    procVars ("= ".toList ++ Q ',' ns) = ns.map norm := by
  have m1 : ns.map (replaceChar '=' []) = ns := by
    conv => rhs; rw [← List.map_id ns]
    exact List.map_congr_left fun n hn => replaceChar_none _ _ _ (hok n hn).1
  have m2 : ns.map (replaceChar ',' [' ']) = ns := by
    conv => rhs; rw [← List.map_id ns]
    exact List.map_congr_left fun n hn => replaceChar_none _ _ _ (hok n hn).2.1
  have s1 : strip (replaceChar '=' [] ("= ".toList ++ Q ',' ns)) = Q ',' ns := by
    rw [replaceChar_append, Q_replace '=' ',' [] ',' (by decide) (by decide), m1]
    show strip (' ' :: Q ',' ns) = _
    rw [strip_cons_ws _ _ isWs_space, strip_Q _ _ hne]
  have s2 : strip (replaceChar ',' [' '] (Q ',' ns)) = Q ' ' ns := by
    rw [Q_replace ',' ',' [' '] ' ' (by decide) (by decide), m2, strip_Q _ _ hne]
  have hne' : ∀ f : Str → Str, ns.map f ≠ [] := fun f => by simpa using hne
  unfold procVars
  simp only [s1, s2]
  rw [Q_collapse ' ' ' ' (by decide), strip_Q _ _ (hne' _), Q_replace '[' ' ' _ ' ' (by decide) (by decide),
    List.map_map, strip_Q _ _ (hne' _), Q_replace '(' ' ' _ ' ' (by decide) (by decide), List.map_map,
    strip_Q _ _ (hne' _), Q_collapse '_' ' ' (by decide), List.map_map, strip_Q _ _ (hne' _)]
  have hm : ns.map (collapse '_' ∘ replaceChar '(' ['_', '('] ∘ replaceChar '[' ['_', '['] ∘ collapse ' ')
      = ns.map norm := rfl
  rw [hm, if_pos (Q_ends _ _ (hne' _)).1, joinQ_Q _ (hne' _), replaceChar_cons, if_pos rfl, List.nil_append,
    replaceChar_append]
  · have hnq : '"' ∉ joinWith [','] (ns.map norm) := by
      intro h
      rcases mem_joinWith _ _ _ h with h | ⟨n, hn, h⟩
      · exact absurd h (by decide)
      · obtain ⟨k, hk, rfl⟩ := List.mem_map.1 hn
        rcases mem_norm _ _ h with h | h
        · exact (hok k hk).2.2.1 h
        · exact absurd h (by decide)
    rw [replaceChar_none _ _ _ hnq]
    show splitOn ',' (joinWith [','] (ns.map norm) ++ []) = _
    rw [List.append_nil, splitOn_join _ _ (hne' _)]
    intro n hn h
    obtain ⟨k, hk, rfl⟩ := List.mem_map.1 hn
    rcases mem_norm _ _ h with h | h
    · exact (hok k hk).2.1 h
    · exact absurd h (by decide)
  · intro n hn
    obtain ⟨k, hk, rfl⟩ := List.mem_map.1 hn
    refine ⟨fun h => ?_, norm_head? _ (hok k hk).2.2.2.2⟩
    rcases mem_norm _ _ h with h | h
    · exact (hok k hk).2.2.1 h
    · exact absurd h (by decide)

/-! ### Names that are kept -/


/-- both brackets at once -/
def ins : Str → Str
  | [] => []
  | c :: s => if c = '[' ∨ c = '(' then '_' :: c :: ins s else c :: ins s

theorem ins_eq (s : Str) : replaceChar '(' ['_', '('] (replaceChar '[' ['_', '['] s) = ins s := by
  induction s with
  | nil => rfl
  | cons c s ih =>
    rw [replaceChar_cons, replaceChar_append, ih, ins]
    by_cases h1 : c = '['
    · subst h1; rfl
    · rw [if_neg h1]
      by_cases h2 : c = '('
      · subst h2; rfl
      · rw [if_neg (by simp [h1, h2]), replaceChar_none _ _ _ (by simpa using Ne.symm h2)]; rfl

/-- `p` tells whether the previous character is an underscore -/
def Marked : Bool → Str → Prop
  | _, [] => True
  | p, c :: s => (c ∈ ['[', '('] → p = true) ∧ (c = '_' → p = false) ∧ Marked (decide (c = '_')) s

theorem ins_collapse (s : Str) :
    (Marked false s → collapse '_' (ins s) = s) ∧ (Marked true s → collapse '_' ('_' :: ins s) = '_' :: s) := by
  induction s with
  | nil => exact ⟨fun _ => rfl, fun _ => rfl⟩
  | cons c s ih =>
    have hb : c = '[' ∨ c = '(' ↔ c ∈ ['[', '('] := by simp
    constructor
    · rintro ⟨h1, _, h3⟩
      have hn : ¬ (c = '[' ∨ c = '(') := fun h => nomatch h1 (hb.1 h)
      rw [ins, if_neg hn]
      by_cases hc : c = '_'
      · subst hc; exact ih.2 (by simpa using h3)
      · rw [collapse_cons_ne _ _ _ hc, ih.1 (by simpa [hc] using h3)]
    · rintro ⟨_, h2, h3⟩
      have hc : c ≠ '_' := fun h => nomatch h2 h
      have h3 : Marked false s := by simpa [hc] using h3
      rw [ins]
      split
      · rw [collapse, if_pos ⟨rfl, rfl⟩, collapse_cons_ne _ _ _ hc, ih.1 h3]
      · rw [collapse, if_neg (fun e => hc e.2), collapse_cons_ne _ _ _ hc, ih.1 h3]

theorem stable_marked (p s : Str) (h2 : ¬ ['_', '_'] <:+: p ++ s)
    (h3 : ∀ a b q, p ++ s = a ++ b :: q → b ∈ ['[', '('] → a.getLast? = some '_') :
    Marked (decide (p.getLast? = some '_')) s := by
  induction s generalizing p with
  | nil => trivial
  | cons c s ih =>
    refine ⟨fun hb => decide_eq_true (h3 p c s rfl hb), fun hc => decide_eq_false fun hp => ?_, ?_⟩
    · subst hc
      obtain ⟨r, rfl⟩ := List.getLast?_eq_some_iff.1 hp
      exact h2 ⟨r, s, by simp⟩
    · have := ih (p ++ [c]) (by simpa using h2) (by simpa using h3)
      simpa using this

theorem norm_stable (n : Str) (h : Stable n) : norm n = n := by
  unfold norm
  rw [collapse_none _ _ h.1, ins_eq]
  exact (ins_collapse n).1 (by simpa using stable_marked [] n (by simpa using h.2.1) (by simpa using h.2.2))

/-! ### Rows of numbers -/

/-- `s` is the padded text of the number `x` -/
def NumText (T : Txt F) (x : F) (s : Str) : Prop :=
  ∃ a b w, s = List.replicate a ' ' ++ (w ++ List.replicate b ' ') ∧ IsWord w ∧ '#' ∉ w ∧
    T.dec w = some x ∧ T.isNum (lower w) = true ∧ ∃ c, w.head? = some c ∧ c ∈ "+-.0123456789nNiI".toList

/-- a row whose text is faithful and fits on one line -/
def RowOk (T : Txt F) (row : List F) : Prop :=
  List.Forall₂ (NumText T) row (T.fmt row) ∧ (joinWith [' '] (T.fmt row)).length ≤ 73

theorem wrap_fits (ws : List Str) (hne : ws ≠ []) (line : Str)
    (h : line.length + (joinWith [' '] ws).length ≤ 74) : wrap line ws = [line ++ joinWith [' '] ws] := by
  induction ws generalizing line with
  | nil => exact absurd rfl hne
  | cons w ws ih =>
    cases ws with
    | nil =>
      have h : line.length + w.length ≤ 74 := h
      rw [wrap, if_neg (by omega)]; rfl
    | cons w' ws =>
      have e : joinWith [' '] (w :: w' :: ws) = w ++ [' '] ++ joinWith [' '] (w' :: ws) := rfl
      rw [e] at h ⊢
      simp only [List.length_append, List.length_singleton] at h
      rw [wrap, if_neg (by omega), ih (by simp)]
      · simp
      · simp only [List.length_append, List.length_singleton]; omega

theorem forall₂_ne_nil {R : α → β → Prop} {xs : List α} {ys : List β} (h : List.Forall₂ R xs ys) (hne : xs ≠ []) :
    ys ≠ [] := by
  cases h with
  | nil => exact absurd rfl hne
  | cons _ _ => simp

theorem rowText_fits (T : Txt F) (row : List F) (hne : row ≠ []) (h : RowOk T row) :
    rowText T row = joinWith [' '] (T.fmt row) := by
  have h2 := h.2
  rw [rowText, wrap_fits _ (forall₂_ne_nil h.1 hne) _ (by simp only [List.length_singleton]; omega)]
  rfl

theorem words_pad (a b : Nat) (w : Str) (hw : IsWord w) :
    words (List.replicate a ' ' ++ (w ++ List.replicate b ' ')) = [w] := by
  have : ∀ a (s : Str), words (List.replicate a ' ' ++ s) = words s := by
    intro a s
    induction a with
    | zero => simp
    | succ k ih => rw [List.replicate_succ, List.cons_append, words_cons_ws _ _ isWs_space, ih]
  rw [this, words_append_allWs, words_word hw]
  intro c hc
  rw [(List.mem_replicate.1 hc).2]; decide

theorem words_row {T : Txt F} {xs : List F} {ss : List Str} (h : List.Forall₂ (NumText T) xs ss) :
    ∃ ws, words (joinWith [' '] ss) = ws ∧ ws.map T.dec = xs.map some := by
  induction h with
  | nil => exact ⟨[], rfl, rfl⟩
  | @cons x s xs ss hx hr ih =>
    obtain ⟨a, b, w, rfl, hw, _, hd, _⟩ := hx
    obtain ⟨ws, hws, hm⟩ := ih
    refine ⟨w :: ws, ?_, by rw [List.map_cons, List.map_cons, hd, hm]⟩
    cases ss with
    | nil =>
      have : ws = [] := by rw [← hws]; rfl
      subst this
      exact words_pad _ _ _ hw
    | cons s' ss =>
      show words (_ ++ [' '] ++ joinWith [' '] (s' :: ss)) = _
      rw [List.append_assoc, List.singleton_append, words_append _ _ _ isWs_space, words_pad _ _ _ hw, hws]
      rfl

theorem forall₂_right {R : α → β → Prop} {xs : List α} {ys : List β} (h : List.Forall₂ R xs ys) :
    ∀ y ∈ ys, ∃ x, R x y := by
  induction h with
  | nil => simp
  | cons hx _ ih =>
    intro s hs
    rcases List.mem_cons.1 hs with rfl | hs
    · exact ⟨_, hx⟩
    · exact ih s hs

theorem takeWhile_all (p : Char → Bool) (s : Str) (h : ∀ c ∈ s, p c = true) : s.takeWhile p = s := by
  induction s with
  | nil => rfl
  | cons c s ih =>
    rw [List.takeWhile_cons_of_pos (h c (by simp)), ih fun d hd => h d (by simp [hd])]

theorem row_noChar {T : Txt F} {xs : List F} {ss : List Str} (h : List.Forall₂ (NumText T) xs ss) (c : Char)
    (hc : c = '#' ∨ c = '\n') : c ∉ joinWith [' '] ss := by
  intro hm
  rcases mem_joinWith _ _ _ hm with hm | ⟨s, hs, hm⟩
  · rw [List.mem_singleton] at hm
    subst hm; revert hc; decide
  · obtain ⟨x, a, b, w, rfl, hw, h1, _⟩ := forall₂_right h s hs
    rcases List.mem_append.1 hm with hm | hm
    · have := (List.mem_replicate.1 hm).2
      subst this; revert hc; decide
    · rcases List.mem_append.1 hm with hm | hm
      · rcases hc with rfl | rfl
        · exact h1 hm
        · exact absurd (hw.2 _ hm) (by decide)
      · have := (List.mem_replicate.1 hm).2
        subst this; revert hc; decide

theorem allSome_map_some (xs : List F) : allSome (xs.map some) = some xs := by
  induction xs with
  | nil => rfl
  | cons x xs ih => rw [List.map_cons, allSome, ih]; rfl

theorem loadLine_row (T : Txt F) (row : List F) (h : RowOk T row) :
    loadLine T (joinWith [' '] (T.fmt row)) = some row := by
  obtain ⟨ws, hws, hm⟩ := words_row h.1
  have : (joinWith [' '] (T.fmt row)).takeWhile (· ≠ '#') = joinWith [' '] (T.fmt row) := by
    apply takeWhile_all
    intro c hc
    refine decide_eq_true ?_
    rintro rfl
    exact row_noChar h.1 _ (.inl rfl) hc
  rw [loadLine, this, hws, hm, allSome_map_some]

theorem allSome_rows (T : Txt F) (M : List (List F)) (hok : ∀ r ∈ M, RowOk T r) :
    allSome ((M.map (fun r => joinWith [' '] (T.fmt r)) ++ [[]]).map (loadLine T)) = some (M ++ [[]]) := by
  induction M with
  | nil => rfl
  | cons r M ih =>
    rw [List.map_cons, List.cons_append, List.map_cons, loadLine_row T r (hok r (by simp)), allSome,
      ih fun r hr => hok r (by simp [hr])]
    rfl

theorem loadtxt_rows (T : Txt F) (M : List (List F)) (n : Nat) (hn : 2 ≤ n) (hM : 2 ≤ M.length)
    (hlen : ∀ r ∈ M, r.length = n) (hok : ∀ r ∈ M, RowOk T r) :
    loadtxt T (M.map (fun r => joinWith [' '] (T.fmt r)) ++ [[]]) n = .ok M := by
  have hf : (M ++ [[]]).filter (· ≠ []) = M := by
    rw [List.filter_append, List.filter_eq_self.2]
    · simp
    · intro r hr
      have := hlen r hr
      refine decide_eq_true ?_
      rintro rfl
      rw [List.length_nil] at this
      omega
  rw [loadtxt, allSome_rows T M hok]
  simp only [hf]
  obtain ⟨r, r', rs, rfl⟩ : ∃ r r' rs, M = r :: r' :: rs := by
    rcases M with _ | ⟨r, _ | ⟨r', rs⟩⟩
    · simp at hM
    · simp at hM
    · exact ⟨r, r', rs, rfl⟩
  have h0 := hlen r (by simp)
  simp only
  rw [if_pos, if_neg (by omega), if_neg (by omega)]
  rw [List.all_eq_true]
  intro x hx
  refine decide_eq_true ?_
  rw [h0]
  exact hlen x (by simp at hx ⊢; tauto)

/-! ### The loop -/

theorem row_first {T : Txt F} {x : F} {xs : List F} {ss : List Str} (h : List.Forall₂ (NumText T) (x :: xs) ss) :
    ∃ w t, strip (joinWith [' '] ss) = w ++ t ∧ IsWord w ∧ (t = [] ∨ ∃ u, t = ' ' :: u) ∧ '#' ∉ w ∧
      T.isNum (lower w) = true ∧ ∃ c, w.head? = some c ∧ c ∈ "+-.0123456789nNiI".toList := by
  cases h with
  | @cons _ s _ ss hx hr =>
    obtain ⟨a, b, w, rfl, hw, h1, _, h2, h3⟩ := hx
    have hpre : ∀ t : Str, (t = [] ∨ ∃ u, t = ' ' :: u) → (rstripBy isWs t = [] ∨ ∃ u, rstripBy isWs t = ' ' :: u) := by
      intro t ht
      obtain ⟨v, hv, _⟩ := rstripBy_append isWs t
      cases hr : rstripBy isWs t with
      | nil => exact .inl rfl
      | cons y u =>
        rw [hr] at hv
        rcases ht with rfl | ⟨u', rfl⟩
        · exact nomatch hv
        · right
          have hv' : ' ' :: u' = y :: (u ++ v) := hv
          injection hv' with e _
          exact ⟨u, by rw [e]⟩
    have hj : ∃ t, joinWith [' '] ((List.replicate a ' ' ++ (w ++ List.replicate b ' ')) :: ss)
        = List.replicate a ' ' ++ (w ++ t) ∧ (t = [] ∨ ∃ u, t = ' ' :: u) := by
      cases ss with
      | nil =>
        refine ⟨List.replicate b ' ', rfl, ?_⟩
        cases b with
        | zero => exact .inl rfl
        | succ b => exact .inr ⟨_, List.replicate_succ⟩
      | cons s' ss =>
        refine ⟨List.replicate b ' ' ++ ' ' :: joinWith [' '] (s' :: ss), by simp [joinWith], .inr ?_⟩
        cases b with
        | zero => exact ⟨_, rfl⟩
        | succ b => exact ⟨_, by rw [List.replicate_succ, List.cons_append]⟩
    obtain ⟨t, hj, ht⟩ := hj
    refine ⟨w, rstripBy isWs t, ?_, hw, hpre t ht, h1, h2, h3⟩
    rw [hj, strip_replicate, strip_word_append _ _ hw]

theorem secOf_num (l : Str) (c : Char) (h : l.head? = some c) (hc : c ∈ "+-.0123456789ni".toList) :
    secOf l = none := by
  cases l with
  | nil => exact nomatch h
  | cons d l =>
    injection h with h
    subst h
    have : keywords.filter (fun k => startsWith (d :: l) k.kw) = [] := by
      rw [List.filter_eq_nil_iff]
      intro k hk
      have hall : ∀ k ∈ keywords, ∀ d ∈ "+-.0123456789ni".toList, ∃ x t, k.kw = x :: t ∧ (x == d) = false := by
        intro k _
        cases k <;> (intro d hd; refine ⟨_, _, rfl, ?_⟩; revert d; decide)
      obtain ⟨x, t, hx, hne⟩ := hall k hk d hc
      rw [startsWith, hx, List.isPrefixOf, hne]
      simp
    rw [secOf, this]

theorem head_words (u v : Str) (hu : IsWord u) (hv : v = [] ∨ ∃ t, v = ' ' :: t) :
    (words (u ++ v)).headD [] = u := by
  rcases hv with rfl | ⟨t, rfl⟩
  · rw [List.append_nil, words_word hu]; rfl
  · rw [words_word_cons hu _ _ isWs_space]; rfl

/-- at the first row of numbers the data are loaded -/
theorem loop_data (T : Txt F) (x : F) (xs : List F) (h : RowOk T (x :: xs)) (rest : List Str) (s : Sec) (m : Str)
    (d : Doc F) (hs : needsVars s = false) :
    loop T (joinWith [' '] (T.fmt (x :: xs)) :: rest) (some (s, m)) d
      = loadData T (some (s, m)) d (joinWith [' '] (T.fmt (x :: xs)) :: rest) := by
  obtain ⟨w, t, hst, hw, ht, hh, hn, c, hc, hmem⟩ := row_first h.1
  have hne : strip (joinWith [' '] (T.fmt (x :: xs))) ≠ [] := by
    rw [hst]; intro e; exact hw.1 (List.append_eq_nil_iff.1 e).1
  have hl : lower (strip (joinWith [' '] (T.fmt (x :: xs)))) = lower w ++ lower t := by
    rw [hst]; simp [lower]
  have hhead : (lower (strip (joinWith [' '] (T.fmt (x :: xs))))).head? = some c.toLower := by
    rw [hst]
    cases w with
    | nil => exact absurd rfl hw.1
    | cons a w =>
      injection hc with hc
      subst hc; rfl
  have hcl : c.toLower ∈ "+-.0123456789ni".toList := by
    have : ∀ c ∈ "+-.0123456789nNiI".toList, c.toLower ∈ "+-.0123456789ni".toList := by decide
    exact this c hmem
  have hnh : c.toLower ≠ '#' := by
    intro e; rw [e] at hcl; exact absurd hcl (by decide)
  rw [loop]
  rw [if_neg hne, if_neg (by rw [hhead]; intro e; injection e with e; exact hnh e), secOf_num _ _ hhead hcl]
  simp only [hs, Bool.false_and, Bool.false_eq_true, if_false]
  rw [if_pos]
  rw [hl, head_words _ _ (isWord_lower hw), hn]
  rcases ht with rfl | ⟨u, rfl⟩
  · exact .inl rfl
  · exact .inr ⟨lower u, rfl⟩

theorem secOf_title (x : Str) : secOf ("title".toList ++ x) = some .title := rfl
theorem secOf_variables (x : Str) : secOf ("variables".toList ++ x) = some .variables := rfl

theorem word_TITLE : IsWord "TITLE".toList := by unfold IsWord; decide
theorem word_VARIABLES : IsWord "VARIABLES".toList := by unfold IsWord; decide

/-- a section line -/
theorem loop_title (T : Txt F) (x : Str) (rest : List Str) (d : Doc F) :
    loop T (("TITLE".toList ++ x) :: rest) none d = loop T rest (some (.title, "TITLE".toList ++ rstripBy isWs x)) d := by
  rw [loop]
  simp only [strip_word_append _ _ word_TITLE]
  have hl : lower ("TITLE".toList ++ rstripBy isWs x) = "title".toList ++ lower (rstripBy isWs x) := by
    simp [lower]
  rw [if_neg (by simp), hl, if_neg (by simp), secOf_title]
  rfl

theorem loop_variables (T : Txt F) (x : Str) (rest : List Str) (cur : Cur) (d d' : Doc F) (h : flush T cur d = .ok d') :
    loop T (("VARIABLES".toList ++ x) :: rest) cur d
      = loop T rest (some (.variables, "VARIABLES".toList ++ rstripBy isWs x)) d' := by
  rw [loop.eq_def]
  simp only [strip_word_append _ _ word_VARIABLES]
  have hl : lower ("VARIABLES".toList ++ rstripBy isWs x) = "variables".toList ++ lower (rstripBy isWs x) := by
    simp [lower]
  rw [if_neg (by simp), hl, if_neg (by simp), secOf_variables]
  simp only [h]

end Verif.Tecplot
