import Verif.Lemmas.HtcEnd
/-! # Lemmas: printing an HTC tree and parsing the text -/
namespace Verif.Htc
open Verif.Py Verif.FastLine

/-! ## stripped lines of a text -/

/-- the lines of a text as `load` sees them -/
def SL (t : Str) : List Str := (splitOn '\n' t).map strip

theorem splitOn_nl (a b : Str) : splitOn '\n' (a ++ '\n' :: b) = splitOn '\n' a ++ splitOn '\n' b := by
  induction a with
  | nil => simp [splitOn]
  | cons x a ih =>
    simp only [List.cons_append, splitOn]
    split
    · rw [ih]; rfl
    · rw [ih]
      cases h : splitOn '\n' a with
      | nil => exact absurd h (splitOn_ne_nil _ _)
      | cons p ps => rfl

theorem SL_nl (a b : Str) : SL (a ++ '\n' :: b) = SL a ++ SL b := by
  simp [SL, splitOn_nl]

theorem SL_line (a : Str) (h : '\n' ∉ a) : SL a = [strip a] := by
  simp [SL, splitOn_noSep _ _ h]

theorem strip_append_ws (a : Str) (c : Char) (hc : isWs c = true) : strip (a ++ [c]) = strip a := by
  unfold strip stripBy lstripBy
  by_cases h : ∀ x ∈ a, isWs x = true
  · have h1 : a.dropWhile isWs = [] := by
      clear hc
      induction a with
      | nil => rfl
      | cons x a ih =>
        rw [List.dropWhile_cons_of_pos (h x (by simp))]
        exact ih (fun y hy => h y (by simp [hy]))
    have h2 : (a ++ [c]).dropWhile isWs = [] := by
      rw [List.dropWhile_append, h1]
      simp [hc]
    rw [h1, h2]
  · have h1 : a.dropWhile isWs ≠ [] := by
      intro he
      apply h
      intro x hx
      by_contra hx'
      have hmem : ∀ s : Str, x ∈ s → x ∈ s.dropWhile isWs := by
        intro s
        induction s with
        | nil => simp
        | cons y s ih =>
          intro hm
          by_cases hy : isWs y = true
          · rw [List.dropWhile_cons_of_pos hy]
            rcases List.mem_cons.mp hm with rfl | hm
            · exact absurd hy hx'
            · exact ih hm
          · rw [List.dropWhile_cons_of_neg hy]; exact hm
      have := hmem a hx
      rw [he] at this
      simp at this
    have h2 : (a ++ [c]).dropWhile isWs = a.dropWhile isWs ++ [c] := by
      rw [List.dropWhile_append]
      simp [h1]
    rw [h2]
    simp [rstripBy, hc]

theorem SL_append_ws (a : Str) (c : Char) (hc : isWs c = true) (hn : c ≠ '\n') : SL (a ++ [c]) = SL a := by
  unfold SL
  have h : ∃ ps p, splitOn '\n' a = ps ++ [p] ∧ splitOn '\n' (a ++ [c]) = ps ++ [p ++ [c]] := by
    induction a with
    | nil => exact ⟨[], [], rfl, by simp [splitOn, hn]⟩
    | cons x a ih =>
      obtain ⟨ps, p, h1, h2⟩ := ih
      simp only [List.cons_append, splitOn]
      by_cases hx : x = '\n'
      · simp only [hx, if_true]
        exact ⟨[] :: ps, p, by rw [h1]; rfl, by rw [h2]; rfl⟩
      · simp only [hx, if_false]
        rw [h1, h2]
        cases ps with
        | nil => exact ⟨[], x :: p, rfl, rfl⟩
        | cons q qs => exact ⟨(x :: q) :: qs, p, rfl, rfl⟩
  obtain ⟨ps, p, h1, h2⟩ := h
  rw [h1, h2]
  simp [strip_append_ws p c hc]

/-- `.replace("\t\n", "\n")` is not visible in stripped lines -/
theorem SL_tabNl : ∀ (x pre t : Str), SL (pre ++ (tabNl x ++ t)) = SL (pre ++ (x ++ t))
  | [], _, _ => rfl
  | [c], _, _ => rfl
  | c :: d :: s, pre, t => by
    unfold tabNl
    split
    · rename_i h
      obtain ⟨rfl, rfl⟩ := h
      have ih := SL_tabNl s [] t
      simp only [List.nil_append] at ih
      rw [List.cons_append, SL_nl, ih]
      have : pre ++ ('\t' :: '\n' :: s ++ t) = (pre ++ ['\t']) ++ '\n' :: (s ++ t) := by simp
      rw [this, SL_nl, SL_append_ws _ _ (by decide) (by decide)]
    · have ih := SL_tabNl (d :: s) (pre ++ [c]) t
      simpa using ih

/-- the stripped lines of the text `t`, whatever follows -/
def Block (t : Str) (ls : List Str) : Prop := ∀ tail, SL (t ++ tail) = ls ++ SL tail

theorem Block.nil : Block [] [] := fun _ => rfl

theorem Block.append {t u : Str} {ls ms : List Str} (h1 : Block t ls) (h2 : Block u ms) :
    Block (t ++ u) (ls ++ ms) := by
  intro tail
  rw [List.append_assoc, h1, h2, List.append_assoc]

theorem Block.of_nl (a : Str) : Block (a ++ ['\n']) (SL a) := by
  intro tail
  rw [List.append_assoc, List.singleton_append, SL_nl]

/-! ## comments -/

/-- a comment as the parser produces it: every line of it without blanks around it,
continuation lines starting with a semicolon -/
def CmtOk (c : Str) : Prop :=
  (∀ p ∈ splitOn '\n' c, strip p = p ∧ '\r' ∉ p) ∧ ∀ p ∈ (splitOn '\n' c).tail, p.head? = some ';'

/-- first line of a comment behind its tab -/
def tabbed (c0 : Str) : Str := if c0 = [] then [] else '\t' :: c0

/-- the lines of `head;` followed by a comment -/
def cmtLines (head c : Str) : List Str :=
  (head ++ ';' :: tabbed ((splitOn '\n' c).headD [])) :: (splitOn '\n' c).tail

/-- begins and ends with a character that is not a blank -/
structure Trim (s : Str) : Prop where
  first : ∀ c, s.head? = some c → isWs c = false
  last : ∀ c, s.getLast? = some c → isWs c = false

theorem Trim.strip {s : Str} (h : Trim s) : strip s = s := stripBy_eq_self isWs s h.first h.last

theorem head?_dropWhile (p : α → Bool) (l : List α) (c : α) (h : (l.dropWhile p).head? = some c) : p c = false := by
  induction l with
  | nil => simp at h
  | cons x l ih =>
    by_cases hx : p x = true
    · rw [List.dropWhile_cons_of_pos hx] at h; exact ih h
    · rw [List.dropWhile_cons_of_neg hx] at h
      simp at h
      subst h
      simpa using hx

theorem Trim.of_strip {s : Str} (h : Py.strip s = s) : Trim s := by
  constructor
  · intro c hc
    rw [← h] at hc
    unfold Py.strip stripBy at hc
    obtain ⟨t, ht, _⟩ := rstripBy_append isWs (lstripBy isWs s)
    have : (lstripBy isWs s).head? = some c := by
      rw [ht]
      cases hr : rstripBy isWs (lstripBy isWs s) with
      | nil => rw [hr] at hc; simp at hc
      | cons a b => rw [hr] at hc; simpa using hc
    exact head?_dropWhile _ _ _ this
  · intro c hc
    rw [← h] at hc
    unfold Py.strip stripBy rstripBy at hc
    rw [List.getLast?_reverse] at hc
    exact head?_dropWhile _ _ _ hc

theorem strip_indent (k : Nat) (s : Str) : Py.strip (List.replicate k ' ' ++ s) = Py.strip s := by
  unfold Py.strip stripBy lstripBy
  congr 1
  induction k with
  | zero => rfl
  | succ k ih =>
    rw [List.replicate_succ, List.cons_append, List.dropWhile_cons_of_pos (by decide), ih]

theorem splitOn_eq (c : Str) : ∃ c0 cs, splitOn '\n' c = c0 :: cs := by
  cases h : splitOn '\n' c with
  | nil => exact absurd h (splitOn_ne_nil _ _)
  | cons a b => exact ⟨a, b, rfl⟩

theorem splitOn_pieces (c : Str) : ∀ p ∈ splitOn '\n' c, '\n' ∉ p := by
  induction c with
  | nil => simp [splitOn]
  | cons x c ih =>
    intro p hp
    unfold splitOn at hp
    by_cases hx : x = '\n'
    · rw [if_pos hx] at hp
      rcases List.mem_cons.mp hp with rfl | hp
      · simp
      · exact ih p hp
    · rw [if_neg hx] at hp
      obtain ⟨c0, cs, h⟩ := splitOn_eq c
      rw [h] at hp ih
      rcases List.mem_cons.mp hp with rfl | hp
      · intro hm
        rcases List.mem_cons.mp hm with hm | hm
        · exact hx hm.symm
        · exact ih c0 (by simp) hm
      · exact ih p (by simp [hp])

/-- the lines under the first one, with their ends of line in front -/
def under (cs : List Str) : Str := cs.flatMap (fun p => '\n' :: p)

theorem join_under (c0 : Str) (cs : List Str) : joinWith ['\n'] (c0 :: cs) = c0 ++ under cs := by
  induction cs generalizing c0 with
  | nil => simp [joinWith, under]
  | cons p cs ih =>
    rw [joinWith_cons _ _ _ (by simp), ih p]
    simp [under]

theorem cmt_eq (c c0 : Str) (cs : List Str) (h : splitOn '\n' c = c0 :: cs) : c = c0 ++ under cs := by
  rw [← join_under, ← h, join_splitOn]

theorem SL_under (a : Str) (cs : List Str) (h : ∀ p ∈ cs, '\n' ∉ p ∧ strip p = p) : SL (a ++ under cs) = SL a ++ cs := by
  induction cs generalizing a with
  | nil => simp [under]
  | cons p cs ih =>
    have hp := h p (by simp)
    have : a ++ under (p :: cs) = a ++ '\n' :: (p ++ under cs) := by simp [under]
    rw [this, SL_nl, ih p (fun q hq => h q (by simp [hq])), SL_line p hp.1, hp.2]
    simp

theorem head_trim (head : Str) (k : Nat) (hne : head ≠ []) (ht : Trim head) (c0 : Str) (hc : strip c0 = c0)
    (b : Bool) (hb : b = false → c0 = []) :
    strip (List.replicate k ' ' ++ head ++ ';' :: (if b then '\t' :: c0 else [])) = head ++ ';' :: tabbed c0 := by
  have hT := Trim.of_strip hc
  have hhead : ∀ x, (head ++ x).head? = head.head? := by
    intro x
    cases head with
    | nil => exact absurd rfl hne
    | cons a l => rfl
  have key : ∀ x : Str, (∀ d, (';' :: x).getLast? = some d → isWs d = false) →
      strip (List.replicate k ' ' ++ head ++ ';' :: x) = head ++ ';' :: x := by
    intro x hx
    rw [List.append_assoc, strip_indent]
    refine Trim.strip ⟨?_, ?_⟩
    · intro d hd; rw [hhead] at hd; exact ht.first d hd
    · intro d hd
      rw [List.getLast?_append] at hd
      cases hx' : (';' :: x).getLast? with
      | none => simp at hx'
      | some e => rw [hx'] at hd; simp at hd; subst hd; exact hx _ hx'
  by_cases h0 : c0 = []
  · subst h0
    cases b with
    | false => exact key [] (by intro d hd; simp at hd; subst hd; decide)
    | true =>
      have := strip_append_ws (List.replicate k ' ' ++ head ++ [';']) '\t' (by decide)
      simp only [List.append_assoc, List.singleton_append] at this
      simp only [if_true, tabbed]
      rw [List.append_assoc, this]
      have h2 := key [] (by intro d hd; simp at hd; subst hd; decide)
      rw [List.append_assoc] at h2
      exact h2
  · have hbt : b = true := by
      cases b with
      | true => rfl
      | false => exact absurd (hb rfl) h0
    subst hbt
    simp only [if_true, tabbed, if_neg h0]
    refine key ('\t' :: c0) ?_
    intro d hd
    refine hT.last d ?_
    rw [show (';' :: '\t' :: c0) = [';', '\t'] ++ c0 from rfl, List.getLast?_append] at hd
    cases hl : c0.getLast? with
    | none => exact absurd (List.getLast?_eq_none_iff.mp hl) h0
    | some e => rw [hl] at hd; simpa using hd

/-- a printed line with its comment -/
theorem block_cmt (level : Nat) (head c : Str) (hne : head ≠ []) (ht : Trim head) (hn : '\n' ∉ head) (hc : CmtOk c) :
    Block (indent level ++ head ++ ';' :: cmtText c ++ ['\n']) (cmtLines head c) := by
  obtain ⟨c0, cs, hs⟩ := splitOn_eq c
  have hceq := cmt_eq c c0 cs hs
  have hpc := hc.1
  rw [hs] at hpc
  have hnl := splitOn_pieces c
  rw [hs] at hnl
  have hblk := Block.of_nl (indent level ++ head ++ ';' :: cmtText c)
  have hlines : SL (indent level ++ head ++ ';' :: cmtText c) = cmtLines head c := by
    unfold cmtText cmtLines
    rw [hs]
    simp only [List.headD_cons, List.tail_cons]
    by_cases hb : strip c = []
    · rw [if_pos hb]
      have hc0 : c0 = [] := by
        by_contra h0
        obtain ⟨x, s, hx⟩ := List.exists_cons_of_ne_nil h0
        have hw := (Trim.of_strip (hpc c0 (by simp)).1).first x (by rw [hx]; rfl)
        have := lower_dropWhile_nil c hb x (by rw [hceq, hx]; simp)
        rw [this] at hw
        exact nomatch hw
      have hcs : cs = [] := by
        by_contra h0
        obtain ⟨p, ps, hp⟩ := List.exists_cons_of_ne_nil h0
        have h1 := hc.2 p (by rw [hs, hp]; simp)
        cases p with
        | nil => simp at h1
        | cons y p =>
          simp at h1
          subst h1
          have := lower_dropWhile_nil c hb ';' (by rw [hceq, hp]; simp [under])
          exact absurd this (by decide)
      subst hc0 hcs
      rw [SL_line _ (by
        simp only [List.mem_append, List.mem_singleton, indent]
        rintro ((h | h) | h)
        · exact absurd (List.eq_of_mem_replicate h) (by decide)
        · exact hn h
        · exact absurd h (by decide))]
      have := head_trim head (2 * level) hne ht [] rfl false (fun _ => rfl)
      simpa [indent] using this
    · rw [if_neg hb]
      have e : indent level ++ head ++ ';' :: '\t' :: c = (indent level ++ head ++ ';' :: '\t' :: c0) ++ under cs := by
        rw [hceq]; simp
      rw [e, SL_under _ _ (fun p hp => ⟨hnl p (by simp [hp]), (hpc p (by simp [hp])).1⟩)]
      rw [SL_line _ (by
        simp only [List.mem_append, List.mem_cons, indent]
        rintro ((h | h) | h | h | h)
        · exact absurd (List.eq_of_mem_replicate h) (by decide)
        · exact hn h
        · exact absurd h (by decide)
        · exact absurd h (by decide)
        · exact hnl c0 (by simp) h)]
      have := head_trim head (2 * level) hne ht c0 (hpc c0 (by simp)).1 true (by simp)
      simp only [if_true] at this
      unfold indent
      rw [this]
      rfl
  rw [hlines] at hblk
  exact hblk

theorem Block.tabNl {a x b : Str} {ls : List Str} (h : Block (a ++ x ++ b) ls) : Block (a ++ Htc.tabNl x ++ b) ls := by
  intro tail
  have := h tail
  rw [← this]
  have := SL_tabNl x a (b ++ tail)
  simpa using this

/-! ## parsing a line with its comment -/

/-- the next line is not a comment -/
def NC (rest : List Str) : Prop := ∀ l, rest.head? = some l → isComment l = false

theorem takeWhile_NC (cs rest : List Str) (h : ∀ p ∈ cs, isComment p = true) (hr : NC rest) :
    (cs ++ rest).takeWhile isComment = cs ∧ (cs ++ rest).dropWhile isComment = rest := by
  induction cs with
  | nil =>
    cases rest with
    | nil => exact ⟨rfl, rfl⟩
    | cons l r =>
      have := hr l rfl
      simp [this]
  | cons p cs ih =>
    obtain ⟨h1, h2⟩ := ih (fun q hq => h q (by simp [hq]))
    have hp := h p (by simp)
    simp [hp, h1, h2]

theorem comment_head (p : Str) (h : p.head? = some ';') : isComment p = true := by
  cases p with
  | nil => simp at h
  | cons c p =>
    simp at h
    subst h
    rfl

theorem rstrip_trim {s : Str} (h : ∀ c, s.getLast? = some c → isWs c = false) : rstrip s = s := by
  unfold rstrip rstripBy
  cases hr : s.reverse with
  | nil => simpa using hr.symm
  | cons c t =>
    have hl : s.getLast? = some c := by
      rw [← List.head?_reverse, hr]; rfl
    rw [List.dropWhile_cons_of_neg (by simp [h c hl]), ← hr, List.reverse_reverse]

theorem foldl_under (x : Str) (cs : List Str) (h : ∀ p ∈ cs, strip p = p) :
    cs.foldl (fun c m => c ++ '\n' :: rstrip m) x = x ++ under cs := by
  induction cs generalizing x with
  | nil => simp [under]
  | cons p cs ih =>
    rw [List.foldl_cons, ih _ (fun q hq => h q (by simp [hq])),
      rstrip_trim (Trim.of_strip (h p (by simp))).last]
    simp [under]

theorem parseNext_cmt (head c : Str) (rest : List Str) (ht : strip head = head) (hsc : ';' ∉ head) (hc : CmtOk c)
    (hr : NC rest) :
    parseNext (head ++ ';' :: tabbed ((splitOn '\n' c).headD [])) ((splitOn '\n' c).tail ++ rest)
      = (head, (if (splitOn '\n' c).headD [] = [] then c else '\t' :: c), rest) := by
  obtain ⟨c0, cs, hs⟩ := splitOn_eq c
  have hceq := cmt_eq c c0 cs hs
  have hpc := hc.1
  rw [hs] at hpc
  have h2 := hc.2
  rw [hs] at h2 ⊢
  simp only [List.headD_cons, List.tail_cons] at h2 ⊢
  obtain ⟨t1, t2⟩ := takeWhile_NC cs rest (fun p hp => comment_head p (h2 p hp)) hr
  unfold parseNext
  simp only [t1, t2]
  rw [splitOn_append _ _ _ hsc]
  simp only [List.headD_cons, List.tail_cons, join_splitOn, ht]
  have hrs : rstrip (tabbed c0) = tabbed c0 := by
    unfold tabbed
    split
    · rfl
    · rename_i h0
      refine rstrip_trim (fun d hd => ?_)
      have hT := (Trim.of_strip (hpc c0 (by simp)).1).last
      rw [show ('\t' :: c0) = ['\t'] ++ c0 from rfl, List.getLast?_append] at hd
      cases hl : c0.getLast? with
      | none => exact absurd (List.getLast?_eq_none_iff.mp hl) h0
      | some e => rw [hl] at hd; simp at hd; subst hd; exact hT _ hl
  rw [hrs, foldl_under _ _ (fun p hp => (hpc p (by simp [hp])).1)]
  unfold tabbed
  by_cases h0 : c0 = []
  · subst h0
    simp [hceq]
  · simp [h0, hceq]

def blank (c : Char) : Bool := c == ' ' || c == '\t'

theorem blank_ws (c : Char) (h : isWs c = false) : blank c = false := by
  unfold blank
  rw [Bool.or_eq_false_iff]
  constructor <;> rw [beq_eq_false_iff_ne] <;> rintro rfl <;> revert h <;> decide

theorem stripBlank_cmt (c : Str) (hc : CmtOk c) :
    stripBlank (if (splitOn '\n' c).headD [] = [] then c else '\t' :: c) = c := by
  obtain ⟨c0, cs, hs⟩ := splitOn_eq c
  have hceq := cmt_eq c c0 cs hs
  have hpc := hc.1
  have h2 := hc.2
  rw [hs] at hpc h2
  have hself : stripBlank c = c := by
    refine stripBy_eq_self blank c ?_ ?_
    · intro d hd
      rw [hceq] at hd
      cases c0 with
      | nil =>
        cases cs with
        | nil => simp [under] at hd
        | cons p cs => simp [under] at hd; subst hd; decide
      | cons a c0 =>
        simp at hd
        subst hd
        exact blank_ws _ ((Trim.of_strip (hpc (a :: c0) (by simp)).1).first _ rfl)
    · intro d hd
      rcases List.eq_nil_or_concat cs with h | ⟨cs', p, h⟩
      · subst h
        rw [hceq] at hd
        simp [under] at hd
        exact blank_ws _ ((Trim.of_strip (hpc c0 (by simp)).1).last d hd)
      · rw [List.concat_eq_append] at h
        have hp2 := h2 p (by rw [h]; simp)
        have hpl := (Trim.of_strip (hpc p (by rw [h]; simp)).1).last
        have hpne : p ≠ [] := by rintro rfl; simp at hp2
        rw [hceq, h] at hd
        simp only [under, List.flatMap_append, List.flatMap_cons, List.flatMap_nil, List.append_nil] at hd
        rw [← List.append_assoc, show ('\n' :: p) = ['\n'] ++ p from rfl, ← List.append_assoc,
          List.getLast?_append] at hd
        cases hl : p.getLast? with
        | none => exact absurd (List.getLast?_eq_none_iff.mp hl) hpne
        | some e => rw [hl] at hd; simp at hd; subst hd; exact blank_ws _ (hpl _ hl)
  split
  · exact hself
  · have : stripBlank ('\t' :: c) = stripBlank c := by
      unfold stripBlank stripBy lstripBy
      rw [List.dropWhile_cons_of_pos (by decide)]
    rw [this, hself]

end Verif.Htc
