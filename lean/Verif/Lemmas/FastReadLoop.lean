import Verif.Lemmas.FastRead
/-! Lemmas for C82, second part: the iterations of the loop on a saved file. -/
namespace Verif.FastRead
open Verif.Py Verif.FastDict Verif.FastLine Verif.FastTable

variable {N : Num}

/-! ### one line -/

theorem turn_line (n : Nat) (s : St N.F) (i : Nat) (line : Str) (rest : List Str)
    (h : isSection line = false) : turn N n s i line rest = linePart N n s i line rest := by
  unfold isSection at h
  simp only [Bool.or_eq_false_iff] at h
  obtain ⟨⟨⟨⟨⟨⟨h1, h2⟩, h3⟩, h4⟩, h5⟩, h6⟩, h7⟩ := h
  have a1 : isOutSection line = false := by unfold isOutSection; rw [h1, h2, h3]; rfl
  have a2 : isSDSection line = false := by unfold isSDSection; rw [h4, h5]; rfl
  unfold turn
  rw [a1, a2, h6, h7]
  rfl

/-- the state after a `kp_total` -/
def kpState (raw : Str) (s : St F) : St F :=
  if raw = "kp_total".toList then { s with allow := true } else s

theorem linePart_table (n : Nat) (s : St N.F) (i : Nat) (line : Str) (rest : List Str)
    (e : Entry (EVal N.F)) (hp : parseLine N.toPyFloat s.allow line = .ok e) (ho : s.off = [])
    (h1 : lower e.label ≠ "numcoords".toList) (h2 : lower e.label ≠ "re".toList) :
    linePart N n s i line rest
      = tablePart N n (kpState (lower e.label) s) (lower e.label) (Item.ofEntry e) i line rest := by
  unfold linePart kpState
  rw [hp]
  simp only [ho, List.append_nil]
  split
  · rfl
  · first
      | rfl
      | (rw [if_neg h1, if_neg h2]; rfl)

/-- the state after an entry that is stored -/
def St.after (s : St F) (d : Item F) : St F :=
  { s with data := s.data ++ [d], nComments := s.nComments + (if d.isComment then 1 else 0), nWrong := 0 }

theorem finish_ok (n : Nat) (s : St F) (d : Item F) (i : Nat) (rest : List Str)
    (hl : d.isComment = true ∨ (hasSpecialChars d.label = false ∧ d.label ≠ []))
    (hw : s.nWrong = 0) (hc : 100 * (s.nComments + (if d.isComment then 1 else 0)) ≤ 35 * n) :
    finish n s d i rest = .ok (.go (s.after d) i rest) := by
  have h1 : (!d.isComment && hasSpecialChars d.label) = false := by
    rcases hl with h | ⟨h, _⟩ <;> simp [h]
  have h2 : (!d.isComment && d.label.isEmpty) = false := by
    rcases hl with h | ⟨_, h⟩
    · simp [h]
    · cases hd : d.label with
      | nil => exact absurd hd h
      | cons a b => simp
  have h3 : (if d.isComment = true then s.nComments + 1 else s.nComments)
      = s.nComments + (if d.isComment then 1 else 0) := by split <;> simp
  unfold finish
  simp only [h1, h2, h3, hw]
  rw [if_neg (by simp), if_neg (by omega), if_neg (by simp)]
  simp [St.after]

/-! ### the state -/

/-- the state of the loop after the entries `b` -/
structure Inv (N : Num) (b : List (Item N.F)) (v l : List Kind) (c : Nat) (s : St N.F) : Prop where
  data : List.Forall₂ (Same N) b s.data
  vals : s.vals = v
  labs : s.labs = l
  off : s.off = []
  nodal : s.nodal = false
  wrong : s.nWrong = 0
  comments : s.nComments = c

theorem Inv.kp {b : List (Item N.F)} {v l : List Kind} {c : Nat} {s : St N.F} (h : Inv N b v l c s) (raw : Str) :
    Inv N b v l c (kpState raw s) := by
  unfold kpState
  split
  · exact ⟨h.data, h.vals, h.labs, h.off, h.nodal, h.wrong, h.comments⟩
  · exact h

theorem lookup_same (b b' : List (Item N.F)) (h : List.Forall₂ (Same N) b b') (key : Str) :
    lookup b' key = lookup b key := by
  unfold lookup
  induction h with
  | nil => rfl
  | cons hd _ ih =>
    rw [List.find?_cons, List.find?_cons, hd.label]
    split
    · simp [hd.value]
    · exact ih

theorem Same.refl (d : Item N.F) : Same N d d := ⟨rfl, rfl, rfl, rfl, rfl, rfl, rfl⟩

theorem forall₂_snoc {α β : Type} {R : α → β → Prop} {a : List α} {b : List β} (h : List.Forall₂ R a b)
    (x : α) (y : β) (hxy : R x y) : List.Forall₂ R (a ++ [x]) (b ++ [y]) := by
  induction h with
  | nil => exact .cons hxy .nil
  | cons h1 _ ih => exact .cons h1 ih

/-- the state after `finish` -/
theorem Inv.next {b : List (Item N.F)} {v l : List Kind} {c : Nat} {s : St N.F} (h : Inv N b v l c s)
    (d d' : Item N.F) (hs : Same N d d') :
    Inv N (b ++ [d]) v l (c + (if d.isComment then 1 else 0)) (s.after d') :=
  ⟨forall₂_snoc h.data _ _ hs, h.vals, h.labs, h.off, h.nodal, rfl, by
    show s.nComments + (if d'.isComment then 1 else 0) = _
    rw [hs.comment, h.comments]⟩

theorem tabLines_dim {b : List (Item N.F)} {v l : List Kind} {c : Nat} {s : St N.F} (h : Inv N b v l c s)
    (k : Kind) (m : Nat) (hd : DimIs b k m) : tabLines s.data k.dim [] = .ok (m : Int) := by
  unfold DimIs at hd
  unfold tabLines
  cases hk : k.dim with
  | const n => rw [hk] at hd; simp only at hd ⊢; rw [hd]
  | var name =>
    rw [hk] at hd
    obtain ⟨x, h1, rfl⟩ := hd
    simp only [List.append_nil]
    rw [lookup_same _ _ h.data, h1]

/-! ### kinds of tables -/

theorem vals_detect (k : Kind) (h : k ∈ valKinds) :
    k.detect ∈ tabValues ∧ hasSpecialChars k.name = false ∧ k.name ≠ [] := by
  revert k; decide

theorem labs_facts (k : Kind) (h : k ∈ labKinds) :
    k.detect ∈ tabLabels ∧ hasSpecialChars k.name = false ∧ k.name ≠ [] ∧ (k.nOffset = 0 → k.nHeaders = 2) ∧
    k.detect ≠ "re".toList ∧ k.detect ≠ "numcoords".toList ∧ k.detect ≠ "afnames".toList ∧ k.detect ≠ "foilnm".toList ∧
    (k.detect = "numalf".toList → k = mkKind "numalf" "NumAlf" "AFCoeff" 2 0 false) ∧
    (k.detect = "guyandampsize".toList → k = ⟨"guyandampsize".toList, .const 6, "GuyanDampMatrix".toList, 0, 1, false⟩) := by
  revert k; decide

theorem valKind_none {b : List (Item N.F)} {v l : List Kind} {c : Nat} {s : St N.F} (h : Inv N b v l c s)
    (hv : v ⊆ valKinds) (d : Item N.F) (hd : ∀ t, d.value = .plain (.scalar (.str t)) → lower t ∉ tabValues) :
    valKind s d = none := by
  unfold valKind
  cases hs : strValue d with
  | none => rfl
  | some t =>
    simp only
    have hval : d.value = .plain (.scalar (.str t)) := by
      unfold strValue at hs
      split at hs
      · next h => injection hs with hs; rw [h, hs]
      · simp at hs
    rw [List.find?_eq_none]
    intro k hk e
    rw [h.vals] at hk
    rw [beq_iff_eq] at e
    exact hd t hval (e ▸ (vals_detect k (hv hk)).1)

theorem labs_none {b : List (Item N.F)} {v l : List Kind} {c : Nat} {s : St N.F} (h : Inv N b v l c s)
    (hl : l ⊆ labKinds) (raw : Str) (hr : ∀ k ∈ labKinds, k.detect ≠ raw) :
    s.labs.find? (fun k => k.detect == raw) = none := by
  rw [List.find?_eq_none, h.labs]
  intro k hk e
  exact hr k (hl hk) (by simpa using e)

/-! ### an entry that is not a table -/

/-- `go d s i rest s'`: the entry is stored and the loop goes on -/
def Goes (N : Num) (n : Nat) (s : St N.F) (i : Nat) (lines : List Str) (rest : List Str)
    (b : List (Item N.F)) (v l : List Kind) (c : Nat) : Prop :=
  ∃ line more s' i', lines = line :: more ∧ turn N n s i line more = .ok (.go s' i' rest) ∧ Inv N b v l c s'

theorem itemText_ofEntry (e : Entry (EVal N.F)) : itemText N (Item.ofEntry e) = .ok (entryText N.toPyFloat e) := by
  obtain ⟨label, value, isComment, descr, tabType⟩ := e
  unfold itemText Item.ofEntry
  cases isComment <;> rfl

theorem same_reread (hP : N.toPyFloat.Lawful) (e : Entry (EVal N.F)) (h : EntryOK N.toPyFloat e) :
    Same N (Item.ofEntry e) (Item.ofEntry (reread N.toPyFloat e)) := by
  obtain ⟨h1, h2, h3⟩ := reread_label N.toPyFloat e
  refine ⟨h1, ?_, h3, rfl, rfl, rfl, ?_⟩
  · show FVal.plain _ = FVal.plain _
    rw [h2]
  · rw [itemText_ofEntry, itemText_ofEntry, (entry_reread N.toPyFloat hP false e h).2]

theorem entry_label (e : Entry (EVal N.F)) (h : EntryOK N.toPyFloat e) :
    e.isComment = true ∨ (hasSpecialChars e.label = false ∧ e.label ≠ []) := by
  rcases h with ⟨l, rfl, _⟩ | ⟨_, _, hl, hs, _⟩
  · exact Or.inl rfl
  · exact Or.inr ⟨hs, hl.word.1⟩

/-- an entry that no list detects -/
theorem tablePart_plain {b : List (Item N.F)} {v l : List Kind} {c : Nat} {s : St N.F} (h : Inv N b v l c s)
    (hv : v ⊆ valKinds) (hl : l ⊆ labKinds) (n i : Nat) (raw line : Str) (rest : List Str) (d d' : Item N.F)
    (hd : ∀ t, d'.value = .plain (.scalar (.str t)) → lower t ∉ tabValues)
    (hr : ∀ k ∈ labKinds, k.detect ≠ raw) (hf : ∀ k ∈ filKinds, k.1 ≠ lower d'.label)
    (hs : Same N d d') (hlab : d'.isComment = true ∨ (hasSpecialChars d'.label = false ∧ d'.label ≠ []))
    (hC : 100 * (c + (if d.isComment then 1 else 0)) ≤ 35 * n) :
    ∃ s', tablePart N n s raw d' i line rest = .ok (.go s' (i + 1) rest) ∧
      Inv N (b ++ [d]) v l (c + (if d.isComment then 1 else 0)) s' := by
  refine ⟨_, ?_, h.next d d' hs⟩
  unfold tablePart
  rw [valKind_none h hv d' hd]
  simp only
  rw [labs_none h hl raw hr]
  simp only
  have : filKinds.find? (fun k => k.1 == lower d'.label) = none := by
    rw [List.find?_eq_none]
    intro k hk e
    exact hf k hk (by simpa using e)
  rw [this]
  exact finish_ok n s d' (i + 1) rest hlab h.wrong (by rw [h.comments, hs.comment]; exact hC)

theorem tabLabels_ne (raw : Str) (h : raw ∉ tabLabels) :
    (∀ k ∈ labKinds, k.detect ≠ raw) ∧ (∀ k ∈ filKinds, k.1 ≠ raw) ∧ raw ≠ "numcoords".toList ∧ raw ≠ "re".toList := by
  refine ⟨?_, ?_, ?_, ?_⟩
  · intro k hk e
    exact h (e ▸ (labs_facts k hk).1)
  · intro k hk e
    apply h
    rw [← e]
    clear e
    revert k; decide
  · intro e; apply h; rw [e]; decide
  · intro e; apply h; rw [e]; decide

theorem plain_turn (hP : N.toPyFloat.Lawful) {b : List (Item N.F)} {v l : List Kind} {c : Nat} {s : St N.F}
    (h : Inv N b v l c s) (hv : v ⊆ valKinds) (hl : l ⊆ labKinds) (n i : Nat) (rest : List Str) (d : Item N.F)
    (hd : PlainOK N b d) (hC : 100 * (c + (if d.isComment then 1 else 0)) ≤ 35 * n) :
    ∃ line, itemText N d = .ok line ∧ (∀ ch ∈ line, isLineBreak ch = false) ∧
      Goes N n s i (line :: rest) rest (b ++ [d]) v l (c + (if d.isComment then 1 else 0)) := by
  obtain ⟨e, rfl, he, hbr, hsec, hcase⟩ := hd
  refine ⟨entryText N.toPyFloat e, itemText_ofEntry e, hbr, ?_⟩
  obtain ⟨r1, r2, r3⟩ := reread_label N.toPyFloat e
  have hp := (entry_reread N.toPyFloat hP s.allow e he).1
  have hsame := same_reread hP e he
  have hlab : (Item.ofEntry (reread N.toPyFloat e)).isComment = true ∨
      (hasSpecialChars (Item.ofEntry (reread N.toPyFloat e)).label = false ∧
        (Item.ofEntry (reread N.toPyFloat e)).label ≠ []) := by
    have := entry_label e he
    simp only [Item.ofEntry, r1, r3]; exact this
  rcases hcase with ht | ⟨hre, hnh, m, hm, hm1⟩ | ⟨hnc, hnh, hval⟩
  · -- not special at all
    unfold isTable at ht
    simp only [Bool.or_eq_false_iff, List.contains_eq_mem, decide_eq_false_iff_not] at ht
    obtain ⟨ht1, ht2⟩ := ht
    obtain ⟨g1, g2, g3, g4⟩ := tabLabels_ne _ ht1
    have hdv : ∀ t, (Item.ofEntry (reread N.toPyFloat e)).value = .plain (.scalar (.str t)) → lower t ∉ tabValues := by
      intro t htv
      simp only [Item.ofEntry, r2] at htv
      injection htv with htv
      rw [htv] at ht2
      simpa using ht2
    have hk := h.kp (lower (reread N.toPyFloat e).label)
    obtain ⟨s', hs', hinv⟩ := tablePart_plain hk hv hl n i (lower (reread N.toPyFloat e).label)
      (entryText N.toPyFloat e) rest (Item.ofEntry e) _ hdv (by rw [r1]; exact g1)
      (by simp only [Item.ofEntry, r1]; exact g2) hsame hlab hC
    refine ⟨_, _, s', i + 1, rfl, ?_, hinv⟩
    rw [turn_line _ _ _ _ _ hsec, linePart_table n s i _ rest _ hp h.off (by rw [r1]; exact g3) (by rw [r1]; exact g4)]
    exact hs'
  · have hdv : ∀ t, (Item.ofEntry (reread N.toPyFloat e)).value = .plain (.scalar (.str t)) → lower t ∉ tabValues := by
      intro t htv
      simp only [Item.ofEntry, r2] at htv
      injection htv with htv
      exact hnh t htv
    have hraw : lower "re".toList = "re".toList := by decide
    obtain ⟨s', hs', hinv⟩ := tablePart_plain (s := { s with iTab := s.iTab + 1, off := s.off })
      ⟨h.data, h.vals, h.labs, h.off, h.nodal, h.wrong, h.comments⟩ hv hl n i "re".toList
      (entryText N.toPyFloat e) rest (Item.ofEntry e) (Item.ofEntry (reread N.toPyFloat e)) hdv
      (fun k hk => (labs_facts k hk).2.2.2.2.1)
      (by simp only [Item.ofEntry, r1, hre]; decide) hsame hlab hC
    refine ⟨_, _, s', i + 1, rfl, ?_, hinv⟩
    rw [turn_line _ _ _ _ _ hsec]
    unfold linePart
    rw [hp]
    simp only [r1, hre, hraw]
    rw [if_neg (by decide), if_neg (by decide), if_pos trivial]
    unfold rePart
    rw [lookup_same _ _ h.data, hm]
    simp only
    rw [if_neg (by omega)]
    have hE : ({ Item.ofEntry (reread N.toPyFloat e) with label := "re".toList ++ s.off } : Item N.F)
        = Item.ofEntry (reread N.toPyFloat e) := by
      unfold Item.ofEntry
      simp only [r1, hre, h.off, List.append_nil]
    rw [hE]
    exact hs'
  · have hdv : ∀ t, (Item.ofEntry (reread N.toPyFloat e)).value = .plain (.scalar (.str t)) → lower t ∉ tabValues := by
      intro t htv
      simp only [Item.ofEntry, r2] at htv
      injection htv with htv
      exact hnh t htv
    obtain ⟨s', hs', hinv⟩ := tablePart_plain h hv hl n i "numcoords".toList
      (entryText N.toPyFloat e) rest (Item.ofEntry e) (Item.ofEntry (reread N.toPyFloat e)) hdv
      (fun k hk => (labs_facts k hk).2.2.2.2.2.1)
      (by simp only [Item.ofEntry, r1, hnc]; decide) hsame hlab hC
    refine ⟨_, _, s', i + 1, rfl, ?_, hinv⟩
    rw [turn_line _ _ _ _ _ hsec]
    unfold linePart
    rw [hp]
    simp only [r1, hnc]
    rw [if_neg (by decide), if_pos trivial]
    have hE : ({ Item.ofEntry (reread N.toPyFloat e) with label := e.label ++ s.off } : Item N.F)
        = Item.ofEntry (reread N.toPyFloat e) := by
      unfold Item.ofEntry
      simp only [r1, h.off, List.append_nil]
    rw [hE]
    have hvv : (Item.ofEntry (reread N.toPyFloat e)).value = .plain e.value := by
      unfold Item.ofEntry; rw [r2]
    unfold coordPart
    rcases hval with ⟨m, hm, hm0⟩ | ⟨t, ht⟩
    · rw [hvv, hm]; simp only; rw [if_pos hm0]; exact hs'
    · rw [hvv, ht]; exact hs'

end Verif.FastRead
