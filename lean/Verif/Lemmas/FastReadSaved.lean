import Verif.Lemmas.FastReadRest
/-! Lemmas for C82, last part: channel lists, and the whole file. -/
namespace Verif.FastRead
open Verif.Py Verif.FastDict Verif.FastLine Verif.FastTable

variable {N : Num}

theorem wordChar_ws (c : Char) (h : isWordChar c = true) : isWs c = false := by
  cases hw : isWs c with
  | false => rfl
  | true =>
    exfalso
    have key : ∀ c : Char, isWs c = true → (c.toNat ≤ 32 ∨ 127 < c.toNat) := by
      intro c hc
      unfold isWs at hc
      simp only [Bool.or_eq_true, Bool.and_eq_true, decide_eq_true_eq, beq_iff_eq] at hc
      omega
    have h1 := key c hw
    unfold isWordChar Char.isAlphanum Char.isAlpha Char.isUpper Char.isLower Char.isDigit at h
    simp only [Bool.or_eq_true, Bool.and_eq_true, decide_eq_true_eq, beq_iff_eq] at h
    have v : c.toNat = c.val.toNat := rfl
    rcases h with ((⟨h2, h3⟩ | ⟨h2, h3⟩) | ⟨h2, h3⟩) | h2
    · have := UInt32.le_iff_toNat_le.1 h2; have := UInt32.le_iff_toNat_le.1 h3
      simp at *; omega
    · have := UInt32.le_iff_toNat_le.1 h2; have := UInt32.le_iff_toNat_le.1 h3
      simp at *; omega
    · have := UInt32.le_iff_toNat_le.1 h2; have := UInt32.le_iff_toNat_le.1 h3
      simp at *; omega
    · subst h2; revert h1; decide

theorem dropWhile_all (p : Char → Bool) (s t : Str) (h : ∀ c ∈ s, p c = true) (ht : ∀ c, t.head? = some c → p c = false) :
    (s ++ t).dropWhile p = t ∧ (s ++ t).takeWhile p = s := by
  induction s with
  | nil =>
    cases t with
    | nil => exact ⟨rfl, rfl⟩
    | cons x t => simp [ht x rfl]
  | cons x s ih =>
    have hx := h x (by simp)
    have ih := ih (fun c hc => h c (by simp [hc]))
    simp [hx, ih.1, ih.2]

/-- first word and remainder of the line of a channel list -/
theorem out_line (label descr : Str) (h : label ≠ []) (hl : ∀ c ∈ label, isWordChar c = true)
    (hd : ∃ c r, descr = c :: r ∧ isWordChar c = true) :
    firstWord ([' '] ++ label ++ [' '] ++ descr) = some label ∧ remainder ([' '] ++ label ++ [' '] ++ descr) = descr := by
  have hsp : isWordChar ' ' = false := by decide
  have e : [' '] ++ label ++ [' '] ++ descr = [' '] ++ (label ++ ([' '] ++ descr)) := by simp
  have h1 := dropWhile_all (fun c => !isWordChar c) [' '] (label ++ ([' '] ++ descr)) (by simp [hsp]) (by
    intro c hc
    cases label with
    | nil => exact absurd rfl h
    | cons x y => simp at hc; subst hc; simp [hl x (by simp)])
  have h2 := dropWhile_all isWordChar label ([' '] ++ descr) hl (by
    intro c hc; simp at hc; subst hc; exact hsp)
  have h3 := dropWhile_all (fun c => !isWordChar c) [' '] descr (by simp [hsp]) (by
    intro c hc
    obtain ⟨x, r, rfl, hx⟩ := hd
    simp at hc; subst hc; simp [hx])
  have hw : IsWord label := ⟨h, fun c hc => wordChar_ws c (hl c hc)⟩
  constructor
  · unfold firstWord
    rw [e]
    simp only [h1.1, h1.2, h2.2]
    rw [if_neg h, List.singleton_append, strip_space, strip_word hw]
  · unfold remainder
    rw [e, h1.1, h2.1, h3.1]

theorem endItems_eq (h1 : N.parse "END".toList = none) (h2 : N.parse "of".toList = none) :
    endItems N = .ok (endEntries N.F) := by
  have hl : parseLine N.toPyFloat false endLine
      = .ok ⟨"of".toList, .scalar (.str "END".toList), true,
          "input file (the word \"END\" must appear in the first 3 columns of this last OutList line)".toList, 0⟩ := by
    have hw : cleanLine endLine = endLine := by decide +kernel
    have hsp : splitOn ' ' endLine = "END".toList :: "of".toList :: (splitOn ' ' endLine).drop 2 := by decide +kernel
    unfold parseLine
    simp only [hw]
    have hc : isCommentText endLine = false := by decide +kernel
    have hlp : listPart N.toPyFloat endLine = .ok ([], []) := by
      unfold listPart
      have : find [','] endLine = none := by decide +kernel
      rw [this]
    rw [hc, if_neg (by simp), hlp]
    simp only
    have hvs : valueAndSplits N.toPyFloat false endLine [] []
        = .ok (.scalar (.str "END".toList), "of".toList :: (splitOn ' ' endLine).drop 2) := by
      unfold valueAndSplits
      rw [if_neg (by simp), hsp]
      have hm : mergeValue ("END".toList :: "of".toList :: (splitOn ' ' endLine).drop 2)
          = .ok ("END".toList, "of".toList :: (splitOn ' ' endLine).drop 2) := by
        rfl
      rw [hm]
      have hs : scalarOf N.toPyFloat false "END".toList ("of".toList :: (splitOn ' ' endLine).drop 2) = .str "END".toList := by
        unfold scalarOf
        rw [if_neg (by decide), h1]
        simp only
        rw [if_neg (by decide)]
      simp only [hs]
      rfl
    rw [hvs]
    simp only
    have hfl : findLabel N.toPyFloat ("of".toList :: (splitOn ' ' endLine).drop 2)
        = some ("of".toList, (splitOn ' ' endLine).drop 2) := by
      have : (splitOn ' ' endLine).drop 2 = "input".toList :: (splitOn ' ' endLine).drop 3 := by decide +kernel
      rw [this, findLabel, if_neg (by decide), if_neg (by unfold strIsFloat; rw [h2]; simp)]
    rw [hfl]
    simp only
    have he : isEndOf endLine = true := by decide +kernel
    have hd : joinWith [' '] ((splitOn ' ' endLine).drop 2)
        = "input file (the word \"END\" must appear in the first 3 columns of this last OutList line)".toList := by decide +kernel
    have hst : strip "of".toList = "of".toList := by decide
    rw [he, hd, hst]
  have hd : parseLine N.toPyFloat false dashLine = .ok ⟨[], .scalar (.str dashLine), true, [], 0⟩ := by
    unfold parseLine
    have hc : isCommentText (cleanLine dashLine) = true := by decide +kernel
    simp only
    rw [hc, if_pos rfl]
  unfold endItems lineItems lineItems lineItems lineItem
  rw [hl, hd]
  rfl

/-- the text of a channel list, and the end of the reading -/
theorem channels_turn {b : List (Item N.F)} {v l : List Kind} {c : Nat} {s : St N.F}
    (h : Inv N b v l c s) (n i : Nat) (d : Item N.F) (hd : ChannelsOK N d) :
    ∃ line cs, itemText N d = .ok (joinWith ['\n'] (line :: cs)) ∧ (∀ t ∈ line :: cs, ∀ ch ∈ t, isLineBreak ch = false) ∧
      ∃ data', turn N n s i line (cs ++ ["END".toList, dashLine]) = .ok (.stop data') ∧
        List.Forall₂ (Same N) (b ++ d :: endEntries N.F) data' := by
  obtain ⟨label, value, isComment, descr, tabType, names?, units⟩ := d
  obtain ⟨⟨hf1, hf2⟩, hcom, htab, ⟨hn, hu⟩, ⟨hl1, hl2⟩, hdes, hbr, hopen, cs, hval, hne, hlen, hnend, hcb⟩ := hd
  simp only at hcom htab hn hu hl1 hl2 hdes hbr hopen hval
  subst hcom; subst htab; subst hn; subst hu; subst hval
  obtain ⟨ho1, ho2⟩ := out_line label descr hl1 hl2 hdes
  refine ⟨[' '] ++ label ++ [' '] ++ descr, cs, ?_, ?_, s.data ++
    [(⟨label, .fil ([] :: cs), false, descr, .fil, none, none⟩ : Item N.F)] ++ endEntries N.F, ?_, ?_⟩
  · show (.ok (filText [] label descr cs) : Except WErr Str) = _
    unfold filText
    rw [joinNl_cons _ _ hne]
    simp
  · intro t ht
    rcases List.mem_cons.1 ht with rfl | ht
    · exact breaks_append _ _ (breaks_append _ _ (breaks_append _ _ (by decide)
        (fun c hc => lineBreak_ws c (wordChar_ws c (hl2 c hc)))) (by decide)) hbr
    · exact hcb t ht
  · unfold turn
    rw [hopen, if_pos rfl]
    unfold outSection
    rw [ho1]
    simp only
    have hend : IsEnd "END".toList := by unfold IsEnd; decide
    have := (C14_read_partial cs [dashLine] hnend).1 _ hend hlen
    rw [this]
    simp only [h.nodal, List.drop_left]
    rw [if_neg (by simp), endItems_eq hf1 hf2, ho2]
    rfl
  · have e : b ++ (⟨label, .fil ([] :: cs), false, descr, .fil, none, none⟩ : Item N.F) :: endEntries N.F
        = (b ++ [⟨label, .fil ([] :: cs), false, descr, .fil, none, none⟩]) ++ endEntries N.F := by simp
    rw [e]
    refine List.rel_append (forall₂_snoc h.data _ _ ?_) ?_
    · exact Same.refl _
    · exact .cons (Same.refl _) (.cons (Same.refl _) .nil)

/-! ### the channels of SubDyn -/

theorem item_comment (N : Num) (line : Str) : itemText N (Item.comment line) = .ok line := rfl

theorem lineItem_comment (N : Num) (line : Str) (h : IsCommentLine line) :
    lineItem N line = .ok (Item.comment line) := by
  unfold lineItem
  rw [(C13_line N.toPyFloat false line (Or.inl h)).1]
  rfl

theorem subdyn_turn {b : List (Item N.F)} {v l : List Kind} {c : Nat} {s : St N.F}
    (h : Inv N b v l c s) (n i : Nat) (line : Str) (chans : List Str)
    (hd : SubListOK N (Item.comment line) chans) :
    ∃ data', turn N n s i line (chans ++ ["END".toList, dashLine]) = .ok (.stop data') ∧
      List.Forall₂ (Same N) (b ++ Item.comment line :: (chans.map Item.comment ++ endEntries N.F)) data' := by
  obtain ⟨⟨hf1, hf2⟩, ⟨line', he, hcl, _, ho, hs⟩, hlen, hnend, _⟩ := hd
  have : line = line' := by
    have := congrArg Item.value he
    simp only [Item.comment] at this
    injection this with this; injection this with this; injection this
  subst this
  refine ⟨s.data ++ [Item.comment line] ++ chans.map Item.comment ++ endEntries N.F, ?_, ?_⟩
  · unfold turn
    rw [ho, if_neg (by simp), hs, if_pos rfl]
    unfold sdSection
    rw [lineItem_comment N line hcl]
    have hend : IsEnd "END".toList := by unfold IsEnd; decide
    have := (C14_read_partial chans [dashLine] hnend).1 _ hend hlen
    simp only
    rw [this]
    simp only
    rw [endItems_eq hf1 hf2]
  · have refl : ∀ ds : List (Item N.F), List.Forall₂ (Same N) ds ds := by
      intro ds
      induction ds with
      | nil => exact .nil
      | cons d ds ih => exact .cons (Same.refl d) ih
    have e : b ++ Item.comment line :: (chans.map Item.comment ++ endEntries N.F)
        = b ++ ([Item.comment line] ++ chans.map Item.comment ++ endEntries N.F) := by simp
    have e2 : s.data ++ [Item.comment line] ++ chans.map Item.comment ++ endEntries N.F
        = s.data ++ ([Item.comment line] ++ chans.map Item.comment ++ endEntries N.F) := by simp
    rw [e, e2]
    exact List.rel_append h.data (refl _)

/-! ### BeamDyn sections -/

/-- the lines of a matrix -/
def matLines (N : Num) (K : List N.F) : List Str :=
  (List.range 6).map (fun i =>
    "   ".toList ++ joinWith [' '] ((List.range 6).map (fun j => N.e24 (K.getD (6 * i + j) N.zero))))

/-- the lines of a section -/
def secLines (N : Num) (s : N.F × List N.F × List N.F) : List Str :=
  [N.f6 s.1] ++ matLines N s.2.1 ++ [[]] ++ matLines N s.2.2 ++ [[]]

theorem matText_lines (N : Num) (K : List N.F) : matText N K = joinWith ['\n'] (matLines N K) := rfl

theorem matLines_length (N : Num) (K : List N.F) : (matLines N K).length = 6 := rfl

/-- every line followed by a newline -/
theorem nl_lines (ls : List Str) (h : ls ≠ []) : joinWith ['\n'] ls ++ ['\n'] = joinWith ['\n'] (ls ++ [[]]) := by
  rw [joinWith_append _ _ _ h (by simp)]; simp [joinWith]

theorem secText_lines (N : Num) (s : N.F × List N.F × List N.F) :
    sectionText N s.1 s.2.1 s.2.2 = joinWith ['\n'] (secLines N s ++ [[]]) := by
  have h6 : ∀ K : List N.F, matLines N K ≠ [] := by
    intro K h; have := matLines_length N K; rw [h] at this; simp at this
  unfold sectionText secLines
  rw [joinWith_append _ _ _ (by simp) (by simp), joinWith_append _ _ _ (by simp) (by simp),
    joinWith_append _ _ _ (by simp) (h6 _), joinWith_append _ _ _ (by simp [h6]) (by simp),
    joinWith_append _ _ _ (by simp) (h6 _)]
  rw [matText_lines, matText_lines]
  simp [joinWith]

theorem beamText_lines (N : Num) (secs : List (N.F × List N.F × List N.F)) (h : secs ≠ []) :
    secs.flatMap (fun s => sectionText N s.1 s.2.1 s.2.2) = joinWith ['\n'] (secs.flatMap (secLines N) ++ [[]]) := by
  induction secs with
  | nil => exact absurd rfl h
  | cons s secs ih =>
    rw [List.flatMap_cons, List.flatMap_cons, secText_lines]
    by_cases hn : secs = []
    · subst hn; simp
    · rw [ih hn, List.append_assoc, joinWith_append _ (secLines N s) _ (by simp [secLines]) (by simp),
        joinWith_append _ (secLines N s) _ (by simp [secLines]) (by simp)]
      simp [joinWith]

theorem words_term (N : Num) (ys : List N.F) (h : ∀ y ∈ ys, TermOK N y) :
    (ys.flatMap (fun y => words (N.e24 y))).mapM N.parse = some ys := by
  induction ys with
  | nil => rfl
  | cons y ys ih =>
    obtain ⟨k, w, h1, h2, h3⟩ := h y (by simp)
    have ih := ih (fun z hz => h z (by simp [hz]))
    have hw : words (N.e24 y) = [w] := by
      rw [h1, words_spaces, words_word h2]
    rw [List.flatMap_cons, hw, List.singleton_append, List.mapM_cons, h3, ih]
    rfl

theorem terms_eq {α : Type} (K : List α) (z : α) (h : K.length = 36) :
    (List.range 6).flatMap (fun i => (List.range 6).map (fun j => K.getD (6 * i + j) z)) = K := by
  have h1 : (List.range 6).flatMap (fun i => (List.range 6).map (fun j => 6 * i + j)) = List.range 36 := by decide
  have h2 : (List.range 6).flatMap (fun i => (List.range 6).map (fun j => K.getD (6 * i + j) z))
      = ((List.range 6).flatMap (fun i => (List.range 6).map (fun j => 6 * i + j))).map (fun q => K.getD q z) := by
    rw [List.map_flatMap]
    simp only [List.map_map, Function.comp_def]
  rw [h2, h1]
  apply List.ext_getElem
  · simp [h]
  · intro q h3 h4
    simp [h4]

theorem matrix_read (N : Num) (K : List N.F) (hK : K.length = 36) (h : ∀ y ∈ K, TermOK N y) (rest : List Str) :
    matrix36 N (matLines N K ++ rest) = some K := by
  unfold matrix36
  have ht : (matLines N K ++ rest).take 6 = matLines N K := by
    rw [List.take_append_of_le_length (Nat.le_of_eq (matLines_length N K).symm), List.take_of_length_le (Nat.le_of_eq (matLines_length N K))]
  have hw : words (joinWith [' '] (matLines N K)) = K.flatMap (fun y => words (N.e24 y)) := by
    rw [words_joinWs _ isWs_space]
    unfold matLines
    rw [List.flatMap_map]
    conv => rhs; rw [← terms_eq K N.zero hK, List.flatMap_assoc]
    congr 1
    funext i
    rw [List.flatMap_map]
    have : "   ".toList = List.replicate 3 ' ' := by decide
    rw [this, words_spaces, words_joinWs _ isWs_space, List.flatMap_map]
  rw [ht, hw, words_term N K h]
  simp [hK]

theorem matLines_breaks (N : Num) (K : List N.F) (hK : K.length = 36) (h : ∀ y ∈ K, TermOK N y) :
    ∀ t ∈ matLines N K, ∀ c ∈ t, isLineBreak c = false := by
  intro t ht
  unfold matLines at ht
  obtain ⟨i, hi, rfl⟩ := List.mem_map.1 ht
  refine breaks_append _ _ (by decide) (breaks_join _ _ (by decide) ?_)
  intro u hu
  obtain ⟨j, hj, rfl⟩ := List.mem_map.1 hu
  have hi := List.mem_range.1 hi
  have hj := List.mem_range.1 hj
  have hq : 6 * i + j < K.length := by omega
  have hg : K.getD (6 * i + j) N.zero = K[6 * i + j] := by simp [hq]
  rw [hg]
  obtain ⟨k, w, h1, h2, _⟩ := h _ (List.getElem_mem hq)
  rw [h1]
  refine breaks_append _ _ ?_ (fun c hc => lineBreak_ws c (h2.2 c hc))
  intro c hc
  rw [List.eq_of_mem_replicate hc]; decide

theorem sections_read (N : Num) (secs : List (N.F × List N.F × List N.F))
    (h : ∀ s ∈ secs, SectionOK N s.1 s.2.1 s.2.2) (rest : List Str) :
    beamSections N secs.length (secs.flatMap (secLines N) ++ rest) = some secs := by
  induction secs with
  | nil => rfl
  | cons s secs ih =>
    obtain ⟨x, K, M⟩ := s
    obtain ⟨h1, h2, h3, h4, h5, h6⟩ := h (x, K, M) (by simp)
    simp only at h1 h2 h3 h4 h5 h6
    have ih := ih (fun s hs => h s (by simp [hs]))
    have e : (List.flatMap (secLines N) ((x, K, M) :: secs) ++ rest)
        = N.f6 x :: (matLines N K ++ ([] :: (matLines N M ++ ([] :: (secs.flatMap (secLines N) ++ rest))))) := by
      simp [secLines]
    have d7 : (matLines N K ++ ([] :: (matLines N M ++ ([] :: (secs.flatMap (secLines N) ++ rest))))).drop 7
        = matLines N M ++ ([] :: (secs.flatMap (secLines N) ++ rest)) := by
      rw [show 7 = (matLines N K).length + 1 from rfl, List.drop_append]; simp
    have d14 : (matLines N K ++ ([] :: (matLines N M ++ ([] :: (secs.flatMap (secLines N) ++ rest))))).drop 14
        = secs.flatMap (secLines N) ++ rest := by
      rw [show 14 = 7 + 7 from rfl, ← List.drop_drop, d7, show 7 = (matLines N M).length + 1 from rfl, List.drop_append]; simp
    rw [e, List.length_cons, beamSections, h1, d7, d14, matrix_read N K h3 h5, matrix_read N M h4 h6, ih]
    rfl

theorem beam_turn {b : List (Item N.F)} {v l : List Kind} {c : Nat} {s : St N.F}
    (h : Inv N b v l c s) (d0 d : Item N.F) (hd : BeamOK N b d0 d) :
    ∃ line ls, itemText N d0 = .ok line ∧ itemText N d = .ok (joinWith ['\n'] (ls ++ [[]])) ∧ ls ≠ [] ∧
      (∀ t ∈ line :: ls, ∀ ch ∈ t, isLineBreak ch = false) ∧
      ∀ n i rest, ∃ data', turn N n s i line (ls ++ rest) = .ok (.stop data') ∧
        List.Forall₂ (Same N) (b ++ [d0, d]) data' := by
  obtain ⟨label, value, isComment, descr, tabType, names?, units⟩ := d
  obtain ⟨⟨line, rfl, hcl, hbr, ho, hs, ha, hdp⟩, hlab, hcom, htab, ⟨hn, hu⟩, secs, hval, hne, hok, hcount⟩ := hd
  simp only at hlab hcom htab hn hu hval
  subst hlab; subst hcom; subst htab; subst hn; subst hu; subst hval
  refine ⟨line, secs.flatMap (secLines N), rfl, ?_, ?_, ?_, ?_⟩
  · show (.ok _ : Except WErr Str) = _
    rw [beamText_lines N secs hne]
  · cases secs with
    | nil => exact absurd rfl hne
    | cons x y => simp [secLines]
  · intro t ht
    rcases List.mem_cons.1 ht with rfl | ht
    · exact hbr
    · obtain ⟨q, hq, ht⟩ := List.mem_flatMap.1 ht
      obtain ⟨h1, h2, h3, h4, h5, h6⟩ := hok q hq
      simp only [secLines, List.mem_append, List.mem_singleton] at ht
      rcases ht with (((rfl | ht) | rfl) | ht) | rfl
      · exact h2
      · exact matLines_breaks N _ h3 h5 t ht
      · simp
      · exact matLines_breaks N _ h4 h6 t ht
      · simp
  · intro n i rest
    refine ⟨s.data ++ [Item.comment line, { label := "BeamProperties".toList, tabType := .beamdyn, value := .beam secs }], ?_, ?_⟩
    · unfold turn
      rw [ho, hs, ha, hdp]
      simp only [Bool.false_eq_true, if_false, if_true]
      unfold beamSection
      rw [lineItem_comment N line hcl]
      simp only
      have hlk : tabLines (s.data ++ [Item.comment line]) (.var "station_total".toList) [] = .ok (secs.length : Int) := by
        unfold tabLines
        simp only [List.append_nil]
        have h1 : lookup s.data "station_total".toList = some (.plain (.scalar (.int secs.length))) := by
          rw [lookup_same _ _ h.data, hcount]
        unfold lookup at h1 ⊢
        rw [Option.map_eq_some_iff] at h1
        obtain ⟨x, hx, hv⟩ := h1
        rw [List.find?_append, hx]
        simp [hv]
      rw [hlk]
      simp only
      rw [if_neg (by omega), Int.toNat_natCast, sections_read N secs hok]
    · refine List.rel_append h.data (.cons (Same.refl _) (.cons ?_ .nil))
      exact ⟨rfl, rfl, rfl, rfl, rfl, rfl, rfl⟩

/-! ### the whole file -/

/-- the lines of one entry -/
def ItemLines (N : Num) (d : Item N.F) (ls : List Str) : Prop :=
  ls ≠ [] ∧ itemText N d = .ok (joinWith ['\n'] ls) ∧ ∀ t ∈ ls, ∀ ch ∈ t, isLineBreak ch = false

theorem goes_loop {n fuel : Nat} {s : St N.F} {i : Nat} {lines rest : List Str} {b : List (Item N.F)} {v l : List Kind}
    {c : Nat} (h : Goes N n s i lines rest b v l c) :
    ∃ s' i', Inv N b v l c s' ∧ loop N n (fuel + 1) s i lines = loop N n fuel s' i' rest := by
  obtain ⟨line, more, s', i', rfl, h1, h2⟩ := h
  refine ⟨s', i', h2, ?_⟩
  rw [loop, h1]

theorem lines_unique (d : Item N.F) (a b : List Str) (ha : ItemLines N d a) (hb : ItemLines N d b) : a = b := by
  obtain ⟨a1, a2, a3⟩ := ha
  obtain ⟨b1, b2, b3⟩ := hb
  rw [a2] at b2
  injection b2 with e
  have nl : ∀ ls : List Str, (∀ t ∈ ls, ∀ ch ∈ t, isLineBreak ch = false) → ∀ t ∈ ls, '\n' ∉ t := by
    intro ls h t ht hm
    have := h t ht _ hm
    revert this; decide
  rw [← splitOn_join '\n' a a1 (nl a a3), ← splitOn_join '\n' b b1 (nl b b3), e]

theorem inv_start (b : List (Item N.F)) (v l : List Kind) :
    Inv N b v l 0 { data := b, vals := v, labs := l } := by
  refine ⟨?_, rfl, rfl, rfl, rfl, rfl, rfl⟩
  induction b with
  | nil => exact .nil
  | cons d b ih => exact .cons (Same.refl d) ih

/-- the lines do not depend on the state -/
theorem lines_fixed (b b' : List (Item N.F)) (v l v' l' : List Kind) (d : Item N.F) (k : Nat) (hk : k ≤ 1)
    (h : ∀ (n i c : Nat) (rest : List Str) (s : St N.F), Inv N b v l c s → 100 * (c + k) ≤ 35 * n →
      ∃ ls, ItemLines N d ls ∧ Goes N n s i (ls ++ rest) rest b' v' l' (c + k)) :
    ∃ ls, ItemLines N d ls ∧ ∀ (n i c : Nat) (rest : List Str) (s : St N.F), Inv N b v l c s → 100 * (c + k) ≤ 35 * n →
      Goes N n s i (ls ++ rest) rest b' v' l' (c + k) := by
  obtain ⟨ls, h1, _⟩ := h 100 0 0 [] _ (inv_start b v l) (by omega)
  refine ⟨ls, h1, ?_⟩
  intro n i c rest s hs hC
  obtain ⟨ls', h2, h3⟩ := h n i c rest s hs hC
  rw [lines_unique d ls ls' h1 h2]; exact h3

/-- the same for two entries read together -/
theorem lines_fixed2 (b b' : List (Item N.F)) (v l v' l' : List Kind) (d0 d : Item N.F)
    (h : ∀ (n i c : Nat) (rest : List Str) (s : St N.F), Inv N b v l c s → 100 * c ≤ 35 * n →
      ∃ ls0 ls, ItemLines N d0 ls0 ∧ ItemLines N d ls ∧ Goes N n s i (ls0 ++ (ls ++ rest)) rest b' v' l' c) :
    ∃ ls0 ls, ItemLines N d0 ls0 ∧ ItemLines N d ls ∧ ∀ (n i c : Nat) (rest : List Str) (s : St N.F), Inv N b v l c s →
      100 * c ≤ 35 * n → Goes N n s i (ls0 ++ (ls ++ rest)) rest b' v' l' c := by
  obtain ⟨ls0, ls, h0, h1, _⟩ := h 100 0 0 [] _ (inv_start b v l) (by omega)
  refine ⟨ls0, ls, h0, h1, ?_⟩
  intro n i c rest s hs hC
  obtain ⟨ls0', ls', h2, h3, h4⟩ := h n i c rest s hs hC
  rw [lines_unique d0 ls0 ls0' h0 h2, lines_unique d ls ls' h1 h3]; exact h4

/-- what the induction proves -/
def Reads (N : Num) (b : List (Item N.F)) (v l : List Kind) (ds : List (Item N.F)) : Prop :=
  ∃ tss : List (List Str), List.Forall₂ (ItemLines N) ds tss ∧
    ∀ (n fuel : Nat) (s : St N.F) (i c : Nat) (lines : List Str), Inv N b v l c s →
      (lines = tss.flatten ∨ (EndsBeam ds ∧ lines = tss.flatten.dropLast)) → lines.length ≤ fuel →
      100 * (c + comments ds) ≤ 35 * n →
      ∃ data', loop N n fuel s i lines = .ok data' ∧ List.Forall₂ (Same N) (b ++ ds) data'

theorem comments_cons (d : Item F) (ds : List (Item F)) (h : opens d = false) :
    comments (d :: ds) = comments ds + (if d.isComment then 1 else 0) := by
  unfold comments
  rw [List.takeWhile_cons, h, Bool.not_false, if_pos rfl, List.countP_cons]

theorem endsBeam_cons (d : Item F) (ds : List (Item F)) (h : d.tabType ≠ .beamdyn) (he : EndsBeam (d :: ds)) :
    ds ≠ [] ∧ EndsBeam ds := by
  obtain ⟨x, hx, ht⟩ := he
  cases ds with
  | nil => simp at hx; subst hx; exact absurd ht h
  | cons y ds => rw [List.getLast?_cons_cons] at hx; exact ⟨by simp, x, hx, ht⟩

theorem flatten_ne (ds : List (Item N.F)) (tss : List (List Str)) (h : List.Forall₂ (ItemLines N) ds tss)
    (hne : ds ≠ []) : tss.flatten ≠ [] := by
  cases h with
  | nil => exact absurd rfl hne
  | cons h1 _ =>
    intro e
    rw [List.flatten_cons] at e
    exact h1.1 (List.append_eq_nil_iff.1 e).1

/-- the lines of the rest of the file -/
theorem lines_split (d : Item N.F) (ds : List (Item N.F)) (ls : List Str) (tss : List (List Str)) (lines : List Str)
    (h : List.Forall₂ (ItemLines N) ds tss) (hb : d.tabType ≠ .beamdyn)
    (hl : lines = (ls :: tss).flatten ∨ (EndsBeam (d :: ds) ∧ lines = (ls :: tss).flatten.dropLast)) :
    ∃ rest, lines = ls ++ rest ∧ (rest = tss.flatten ∨ (EndsBeam ds ∧ rest = tss.flatten.dropLast)) := by
  rcases hl with rfl | ⟨he, rfl⟩
  · exact ⟨tss.flatten, rfl, Or.inl rfl⟩
  · obtain ⟨h1, h2⟩ := endsBeam_cons d ds hb he
    refine ⟨tss.flatten.dropLast, ?_, Or.inr ⟨h2, rfl⟩⟩
    rw [List.flatten_cons, List.dropLast_append_of_ne_nil (flatten_ne ds tss h h1)]

theorem reads_one (b : List (Item N.F)) (v l v' l' : List Kind) (d : Item N.F) (ds : List (Item N.F)) (k : Nat)
    (hkd : k = if d.isComment then 1 else 0) (hop : opens d = false) (hbd : d.tabType ≠ .beamdyn)
    (h : ∀ (n i c : Nat) (rest : List Str) (s : St N.F), Inv N b v l c s → 100 * (c + k) ≤ 35 * n →
      ∃ ls, ItemLines N d ls ∧ Goes N n s i (ls ++ rest) rest (b ++ [d]) v' l' (c + k))
    (ih : Reads N (b ++ [d]) v' l' ds) : Reads N b v l (d :: ds) := by
  obtain ⟨ls, h1, h2⟩ := lines_fixed b _ v l v' l' d k (by rw [hkd]; split <;> omega) h
  obtain ⟨tss, h3, h4⟩ := ih
  refine ⟨ls :: tss, .cons h1 h3, ?_⟩
  intro n fuel s i c lines hs hlines hf hC
  obtain ⟨rest, rfl, hrest⟩ := lines_split d ds ls tss lines h3 hbd hlines
  rw [comments_cons d ds hop, ← hkd] at hC
  rw [List.length_append] at hf
  have hlen : 0 < ls.length := List.length_pos_iff.2 h1.1
  obtain ⟨f, rfl⟩ : ∃ f, fuel = f + 1 := ⟨fuel - 1, by omega⟩
  obtain ⟨s', i', hs', he⟩ := goes_loop (fuel := f) (h2 n i c rest s hs (by omega))
  obtain ⟨data', h5, h6⟩ := h4 n f s' i' (c + k) rest hs' hrest (by omega) (by omega)
  refine ⟨data', ?_, by simpa using h6⟩
  rw [he, h5]

theorem reads_two (b : List (Item N.F)) (v l v' l' : List Kind) (d0 d : Item N.F) (ds : List (Item N.F))
    (hop0 : opens d0 = false) (hbd0 : d0.tabType ≠ .beamdyn) (hop : opens d = false) (hbd : d.tabType ≠ .beamdyn)
    (h : ∀ (n i c : Nat) (rest : List Str) (s : St N.F), Inv N b v l c s → 100 * c ≤ 35 * n →
      ∃ ls0 ls, ItemLines N d0 ls0 ∧ ItemLines N d ls ∧ Goes N n s i (ls0 ++ (ls ++ rest)) rest (b ++ [d0, d]) v' l' c)
    (ih : Reads N (b ++ [d0, d]) v' l' ds) : Reads N b v l (d0 :: d :: ds) := by
  obtain ⟨ls0, ls, h0, h1, h2⟩ := lines_fixed2 b _ v l v' l' d0 d h
  obtain ⟨tss, h3, h4⟩ := ih
  refine ⟨ls0 :: ls :: tss, .cons h0 (.cons h1 h3), ?_⟩
  intro n fuel s i c lines hs hlines hf hC
  obtain ⟨rest0, rfl, hrest0⟩ := lines_split d0 (d :: ds) ls0 (ls :: tss) lines (.cons h1 h3) hbd0 hlines
  obtain ⟨rest, rfl, hrest⟩ := lines_split d ds ls tss rest0 h3 hbd hrest0
  rw [comments_cons d0 _ hop0, comments_cons d ds hop] at hC
  rw [List.length_append, List.length_append] at hf
  have hlen : 0 < ls0.length := List.length_pos_iff.2 h0.1
  obtain ⟨f, rfl⟩ : ∃ f, fuel = f + 1 := ⟨fuel - 1, by omega⟩
  obtain ⟨s', i', hs', he⟩ := goes_loop (fuel := f) (h2 n i c rest s hs (by omega))
  obtain ⟨data', h5, h6⟩ := h4 n f s' i' c rest hs' hrest (by omega) (by omega)
  refine ⟨data', ?_, by simpa using h6⟩
  rw [he, h5]

/-- the entry does not open the channels, and is not a blade -/
def Inner (d : Item F) : Prop := opens d = false ∧ d.tabType ≠ .beamdyn

theorem inner_plain {b : List (Item N.F)} {d : Item N.F} (h : PlainOK N b d) : Inner d := by
  obtain ⟨e, rfl, he, _, hsec, _⟩ := h
  refine ⟨?_, by simp [Item.ofEntry]⟩
  rcases he with ⟨l, rfl, _⟩ | ⟨hc, _⟩
  · have : isSection l = false := hsec
    unfold isSection at this
    simp only [Bool.or_eq_false_iff] at this
    show (false || (true && isSDSection l)) = false
    unfold isSDSection
    rw [this.1.1.2, this.1.1.1.2]; rfl
  · simp [opens, Item.ofEntry, hc]

theorem inner_key {key : String} {d : Item N.F} (h : KeyOK N key d) : Inner d := by
  obtain ⟨e, rfl, hc, _⟩ := h
  refine ⟨by simp [opens, Item.ofEntry, hc], by simp [Item.ofEntry]⟩

theorem inner_of {d : Item F} (hc : d.isComment = false) (hf : d.tabType ≠ .fil) (hb : d.tabType ≠ .beamdyn) : Inner d :=
  ⟨by simp [opens, hc, hf], hb⟩

theorem inner_table {k : Kind} {m : Nat} {d : Item N.F} (hd : TableOK N k m d) : Inner d := by
  obtain ⟨names, _, _, _, ⟨_, h, _⟩ | ⟨_, h, _⟩⟩ := hd.head <;>
    exact inner_of hd.comment (by rw [h]; simp) (by rw [h]; simp)

theorem inner_files {k : Str × Str × Str} {b : List (Item N.F)} {d : Item N.F} (hd : FilesOK N k b d) : Inner d := by
  refine ⟨?_, by rw [hd.tab]; simp⟩
  have hk : ∀ k ∈ filKinds, k.2.2 = "AFNames".toList ∨ k.2.2 = "FoilNm".toList := by decide
  have := hk k hd.kind
  rw [← hd.label] at this
  rcases this with h | h <;> simp [opens, hd.comment, h]

/-- the lines of comments -/
theorem comment_lines (chans : List Str) (h : ∀ l ∈ chans, ∀ c ∈ l, isLineBreak c = false) :
    List.Forall₂ (ItemLines N) (chans.map Item.comment) (chans.map (fun c => [c])) := by
  induction chans with
  | nil => exact .nil
  | cons c chans ih =>
    exact .cons ⟨by simp, rfl, by simpa using h c (by simp)⟩ (ih (fun l hl => h l (by simp [hl])))

theorem flatten_singletons (chans : List Str) : (chans.map (fun c => [c])).flatten = chans := by
  induction chans with
  | nil => rfl
  | cons c chans ih => simp [ih]

theorem end_lines : List.Forall₂ (ItemLines N) (endEntries N.F) [["END".toList], [dashLine]] :=
  .cons ⟨by simp, rfl, by decide⟩ (.cons ⟨by simp, rfl, by decide⟩ .nil)

theorem not_endsBeam (ds : List (Item F)) : ¬ EndsBeam (ds ++ endEntries F) := by
  rintro ⟨d, h, ht⟩
  have e : ds ++ endEntries F = (ds ++ (endEntries F).dropLast) ++ [Item.comment (List.replicate 87 '-')] := by
    simp [endEntries]
  rw [e, List.getLast?_concat] at h
  injection h with h
  subst h
  simp [Item.comment] at ht

theorem saved_loop (hP : N.toPyFloat.Lawful) {b : List (Item N.F)} {v l : List Kind} {ds : List (Item N.F)}
    (h : Saved N b v l ds) (hv : v ⊆ valKinds) (hl : l ⊆ labKinds) : Reads N b v l ds := by
  induction h with
  | nil b v l =>
    refine ⟨[], .nil, ?_⟩
    intro n fuel s i c lines hs hlines _ _
    have : lines = [] := by
      rcases hlines with rfl | ⟨_, rfl⟩ <;> rfl
    subst this
    refine ⟨s.data, ?_, by simpa using hs.data⟩
    cases fuel <;> rfl
  | plain b v l d ds hd _ ih =>
    refine reads_one b v l v l d ds _ rfl (inner_plain hd).1 (inner_plain hd).2 ?_ (ih hv hl)
    intro n i c rest s hs hC
    obtain ⟨line, h1, h2, h3⟩ := plain_turn hP hs hv hl n i rest d hd hC
    exact ⟨[line], ⟨by simp, h1, by simpa using h2⟩, h3⟩
  | valTable b v l k m d ds hd hdim hfind _ ih =>
    refine reads_one b v l (v.erase k) l d ds 0 (by rw [hd.comment]; rfl) (inner_table hd).1 (inner_table hd).2 ?_ (ih (fun x hx => hv (List.erase_subset hx)) hl)
    intro n i c rest s hs hC
    obtain ⟨ls, h1, h2, h3, h4⟩ := valTable_turn hP hs hv n i rest k m d hd hdim hfind hC
    exact ⟨ls, ⟨h1, h2, h3⟩, h4⟩
  | labTable b v l k m d ds hd hdim hoff hna hnv hfind _ ih =>
    refine reads_one b v l v (l.erase k) d ds 0 (by rw [hd.comment]; rfl) (inner_table hd).1 (inner_table hd).2 ?_ (ih hv (fun x hx => hl (List.erase_subset hx)))
    intro n i c rest s hs hC
    obtain ⟨ls, h1, h2, h3, h4⟩ := labTable_turn hP hs hv hl n i rest k m d hd hdim hoff hna hnv hfind hC
    exact ⟨ls, ⟨h1, h2, h3⟩, h4⟩
  | polar b v l m d0 d ds hd0 hd hdim hmem _ ih =>
    have hin := inner_of hd.comment (by rw [hd.tab]; simp) (by rw [hd.tab]; simp)
    refine reads_two b v l v l d0 d ds (inner_key hd0).1 (inner_key hd0).2 hin.1 hin.2 ?_ (ih hv hl)
    intro n i c rest s hs hC
    obtain ⟨line, ls, h1, h2, h3, h4, h5, h6⟩ := polar_turn hP hs hv hl n i m rest d0 d hd0 hd hdim hmem hC
    exact ⟨[line], ls, ⟨by simp, h2, by simpa using h4 line (by simp)⟩, ⟨h1, h3, fun t ht => h4 t (by simp [ht])⟩, h6⟩
  | guyan b v l k d0 d ds hd0 hd hfind _ ih =>
    have hin := inner_of hd.comment (by rw [hd.tab]; simp) (by rw [hd.tab]; simp)
    refine reads_two b v l v (l.erase k) d0 d ds (inner_key hd0).1 (inner_key hd0).2 hin.1 hin.2 ?_ (ih hv (fun x hx => hl (List.erase_subset hx)))
    intro n i c rest s hs hC
    obtain ⟨line, ls, h1, h2, h3, h4, h5, h6⟩ := guyan_turn hP hs hv hl n i rest k d0 d hd0 hd hfind hC
    exact ⟨[line], ls, ⟨by simp, h2, by simpa using h4 line (by simp)⟩, ⟨h1, h3, fun t ht => h4 t (by simp [ht])⟩, h6⟩
  | files b v l k d ds hd _ ih =>
    refine reads_one b v l v l d ds 0 (by rw [hd.comment]; rfl) (inner_files hd).1 (inner_files hd).2 ?_ (ih hv hl)
    intro n i c rest s hs hC
    obtain ⟨ls, h1, h2, h3, h4⟩ := files_turn hP hs hv hl n i rest k d hd hC
    exact ⟨ls, ⟨h1, h2, h3⟩, h4⟩
  | channels b v l d hd =>
    obtain ⟨line, cs, h1, h2, _⟩ := channels_turn (inv_start b v l) 0 0 d hd
    have hd1 : ItemLines N d (line :: cs) := ⟨by simp, h1, h2⟩
    refine ⟨[line :: cs, ["END".toList], [dashLine]], .cons hd1 end_lines, ?_⟩
    intro n fuel s i c lines hs hlines hf _
    have hfl : [line :: cs, ["END".toList], [dashLine]].flatten = line :: (cs ++ ["END".toList, dashLine]) := by simp
    rw [hfl] at hlines
    have : lines = line :: (cs ++ ["END".toList, dashLine]) := by
      rcases hlines with h | ⟨h, _⟩
      · exact h
      · exact absurd h (not_endsBeam [d])
    subst this
    obtain ⟨line', cs', h3, h4, data', h5, h6⟩ := channels_turn hs n i d hd
    have he := lines_unique d _ _ hd1 ⟨by simp, h3, h4⟩
    injection he with e1 e2
    subst e1; subst e2
    simp at hf
    obtain ⟨f, rfl⟩ : ∃ f, fuel = f + 1 := ⟨fuel - 1, by omega⟩
    refine ⟨data', ?_, h6⟩
    rw [loop, h5]
  | subdyn b v l d chans hd =>
    obtain ⟨line, rfl, hcl, hbr, ho, hs⟩ := hd.head
    refine ⟨[line] :: (chans.map (fun c => [c]) ++ [["END".toList], [dashLine]]),
      .cons ⟨by simp, rfl, by simpa using hbr⟩ (List.rel_append (comment_lines chans hd.chans.2.2) end_lines), ?_⟩
    intro n fuel s i c lines hs hlines hf _
    have hfl : ([line] :: (chans.map (fun c => [c]) ++ [["END".toList], [dashLine]])).flatten
        = line :: (chans ++ ["END".toList, dashLine]) := by
      rw [List.flatten_cons, List.flatten_append, flatten_singletons]; simp
    rw [hfl] at hlines
    have : lines = line :: (chans ++ ["END".toList, dashLine]) := by
      rcases hlines with h | ⟨h, _⟩
      · exact h
      · exact absurd h (not_endsBeam (Item.comment line :: chans.map Item.comment))
    subst this
    obtain ⟨data', h5, h6⟩ := subdyn_turn hs n i line chans hd
    simp at hf
    obtain ⟨f, rfl⟩ : ∃ f, fuel = f + 1 := ⟨fuel - 1, by omega⟩
    refine ⟨data', ?_, h6⟩
    rw [loop, h5]
  | beam b v l d0 d hd =>
    obtain ⟨line, ls, h1, h2, h3, h4, _⟩ := beam_turn (inv_start b v l) d0 d hd
    have hd0 : ItemLines N d0 [line] := ⟨by simp, h1, by simpa using h4 line (by simp)⟩
    have hd1 : ItemLines N d (ls ++ [[]]) := by
      refine ⟨by simp, h2, ?_⟩
      intro t ht
      rcases List.mem_append.1 ht with ht | ht
      · exact h4 t (by simp [ht])
      · simp at ht; subst ht; simp
    refine ⟨[[line], ls ++ [[]]], .cons hd0 (.cons hd1 .nil), ?_⟩
    intro n fuel s i c lines hs hlines hf _
    obtain ⟨line', ls', g1, g2, g3, g4, g5⟩ := beam_turn hs d0 d hd
    have e1 : line' = line := by rw [g1] at h1; injection h1
    have e2 : ls' = ls := by
      have := lines_unique d (ls' ++ [[]]) (ls ++ [[]]) (by
        refine ⟨by simp, g2, ?_⟩
        intro t ht
        rcases List.mem_append.1 ht with ht | ht
        · exact g4 t (by simp [ht])
        · simp at ht; subst ht; simp) hd1
      exact List.append_cancel_right this
    subst e1; subst e2
    have : ∃ rest, lines = line' :: (ls' ++ rest) := by
      rcases hlines with h | ⟨_, h⟩
      · exact ⟨[[]], by simpa using h⟩
      · have e : [[line'], ls' ++ [[]]].flatten = (line' :: ls') ++ [[]] := by simp
        rw [e, List.dropLast_concat] at h
        exact ⟨[], by simpa using h⟩
    obtain ⟨rest, rfl⟩ := this
    simp at hf
    obtain ⟨f, rfl⟩ : ∃ f, fuel = f + 1 := ⟨fuel - 1, by omega⟩
    obtain ⟨data', h5, h6⟩ := g5 n i rest
    refine ⟨data', ?_, h6⟩
    rw [loop, h5]

/-! ### the text -/

/-- only the last entry is a blade -/
theorem saved_notBeam {b : List (Item N.F)} {v l : List Kind} {ds : List (Item N.F)} (h : Saved N b v l ds) :
    ∀ d ∈ ds.dropLast, d.tabType ≠ .beamdyn := by
  have cons : ∀ (d : Item N.F) ds, d.tabType ≠ .beamdyn → (∀ d ∈ ds.dropLast, d.tabType ≠ .beamdyn) →
      ∀ x ∈ (d :: ds).dropLast, x.tabType ≠ .beamdyn := by
    intro d ds h1 h2 x hx
    cases ds with
    | nil => simp at hx
    | cons y ys =>
      rw [List.dropLast_cons_of_ne_nil (by simp)] at hx
      rcases List.mem_cons.1 hx with rfl | hx
      · exact h1
      · exact h2 x hx
  have coms : ∀ (ds : List (Item N.F)), (∀ d ∈ ds, d.tabType ≠ .beamdyn) → ∀ d ∈ ds.dropLast, d.tabType ≠ .beamdyn :=
    fun ds h d hd => h d ((List.dropLast_sublist ds).subset hd)
  induction h with
  | nil => simp
  | plain b v l d ds hd _ ih => exact cons _ _ (inner_plain hd).2 ih
  | valTable b v l k m d ds hd _ _ _ ih => exact cons _ _ (inner_table hd).2 ih
  | labTable b v l k m d ds hd _ _ _ _ _ _ ih => exact cons _ _ (inner_table hd).2 ih
  | polar b v l m d0 d ds hd0 hd _ _ _ ih =>
    exact cons _ _ (inner_key hd0).2 (cons _ _ (by rw [hd.tab]; simp) ih)
  | guyan b v l k d0 d ds hd0 hd _ _ ih =>
    exact cons _ _ (inner_key hd0).2 (cons _ _ (by rw [hd.tab]; simp) ih)
  | files b v l k d ds hd _ ih => exact cons _ _ (inner_files hd).2 ih
  | channels b v l d hd =>
    apply coms
    intro x hx
    rcases List.mem_cons.1 hx with rfl | hx
    · rw [hd.tab]; simp
    · unfold endEntries at hx
      simp only [List.mem_cons, List.not_mem_nil, or_false] at hx
      rcases hx with rfl | rfl <;> simp [Item.comment]
  | subdyn b v l d chans hd =>
    apply coms
    intro x hx
    obtain ⟨line, rfl, _⟩ := hd.head
    rcases List.mem_cons.1 hx with rfl | hx
    · simp [Item.comment]
    rcases List.mem_append.1 hx with hx | hx
    · obtain ⟨c, _, rfl⟩ := List.mem_map.1 hx
      simp [Item.comment]
    · unfold endEntries at hx
      simp only [List.mem_cons, List.not_mem_nil, or_false] at hx
      rcases hx with rfl | rfl <;> simp [Item.comment]
  | beam b v l d0 d hd =>
    obtain ⟨line, rfl, _⟩ := hd.head
    intro x hx
    simp at hx
    subst hx
    simp [Item.comment]

theorem newline_plain (d : Item F) (h : d.tabType ≠ .beamdyn) (j len : Nat) :
    newlineAfter len j d = decide (j < len - 1) := by
  obtain ⟨label, value, isComment, descr, tabType, names, units⟩ := d
  simp only at h
  unfold newlineAfter
  cases isComment <;> cases tabType <;> first | rfl | exact absurd rfl h

/-- the newline after the last entry (732) -/
def lastNewline (data : List (Item F)) : Str :=
  match data.getLast? with
  | some d => if newlineAfter data.length (data.length - 1) d then ['\n'] else []
  | none => []

theorem lastNewline_plain (data : List (Item F)) (h : ¬ EndsBeam data) : lastNewline data = [] := by
  unfold lastNewline
  split
  · rename_i d hd
    rw [newline_plain d (fun ht => h ⟨d, hd, ht⟩)]
    simp
  · rfl

theorem toString_from (N : Num) (ds : List (Item N.F)) (ts : List Str) (j len : Nat) (hlen : len = j + ds.length)
    (hb : ∀ d ∈ ds.dropLast, d.tabType ≠ .beamdyn) (h : List.Forall₂ (fun d t => itemText N d = .ok t) ds ts) :
    toStringFrom N len j ds = .ok (joinWith ['\n'] ts ++
      match ds.getLast? with
      | some d => if newlineAfter len (len - 1) d then ['\n'] else []
      | none => []) := by
  induction h generalizing j with
  | nil => rfl
  | cons hd hrest ih =>
    rename_i d t ds ts
    simp only [List.length_cons] at hlen
    cases hrest with
    | nil =>
      rw [toStringFrom, hd]
      simp only [toStringFrom, List.length_nil, List.getLast?_singleton] at hlen ⊢
      rw [show len - 1 = j by omega]
      simp [joinWith]
    | cons h1 h2 =>
      rename_i d1 t1 ds ts
      rw [toStringFrom, hd, ih (j + 1) (by omega) (fun d hd => hb d (by
        rw [List.dropLast_cons_of_ne_nil (by simp)]; simp [hd]))]
      simp only
      rw [newline_plain d (hb d (by rw [List.dropLast_cons_of_ne_nil (by simp)]; simp)),
        if_pos (by simp only [List.length_cons] at hlen; simp; omega), joinWith_cons ['\n'] t (t1 :: ts) (by simp),
        List.getLast?_cons_cons]
      simp

theorem toString_join (N : Num) (ds : List (Item N.F)) (ts : List Str)
    (hb : ∀ d ∈ ds.dropLast, d.tabType ≠ .beamdyn) (h : List.Forall₂ (fun d t => itemText N d = .ok t) ds ts) :
    toString_ N ds = .ok (joinWith ['\n'] ts ++ lastNewline ds) := by
  unfold toString_
  rw [toString_from N ds ts 0 _ (by simp) hb h]
  unfold lastNewline
  cases ds.getLast? <;> rfl

theorem join_flatten (tss : List (List Str)) (h : ∀ ls ∈ tss, ls ≠ []) :
    joinWith ['\n'] (tss.map (joinWith ['\n'])) = joinWith ['\n'] tss.flatten := by
  induction tss with
  | nil => rfl
  | cons ls tss ih =>
    have hl := h ls (by simp)
    have ih := ih (fun ls hls => h ls (by simp [hls]))
    by_cases hn : tss = []
    · subst hn; simp [joinWith]
    · have hf : tss.flatten ≠ [] := by
        cases tss with
        | nil => exact absurd rfl hn
        | cons a b =>
          have := h a (by simp)
          intro e
          rw [List.flatten_cons] at e
          exact this (List.append_eq_nil_iff.1 e).1
      rw [List.map_cons, joinWith_cons _ _ _ (by simpa using hn), ih, List.flatten_cons, joinWith_append _ _ _ hl hf]

theorem itemLines_texts (ds : List (Item N.F)) (tss : List (List Str)) (h : List.Forall₂ (ItemLines N) ds tss) :
    List.Forall₂ (fun d t => itemText N d = .ok t) ds (tss.map (joinWith ['\n'])) ∧
      (∀ ls ∈ tss, ls ≠ []) ∧ ∀ l ∈ tss.flatten, ∀ c ∈ l, isLineBreak c = false := by
  induction h with
  | nil => exact ⟨.nil, by simp, by simp⟩
  | cons hd _ ih =>
    refine ⟨.cons hd.2.1 ih.1, ?_, ?_⟩
    · intro ls hls
      rcases List.mem_cons.1 hls with rfl | hls
      · exact hd.1
      · exact ih.2.1 ls hls
    · intro l hl
      rw [List.flatten_cons] at hl
      rcases List.mem_append.1 hl with hl | hl
      · exact hd.2.2 l hl
      · exact ih.2.2 l hl

theorem same_texts (ds ds' : List (Item N.F)) (ts : List Str) (h : List.Forall₂ (Same N) ds ds')
    (ht : List.Forall₂ (fun d t => itemText N d = .ok t) ds ts) :
    List.Forall₂ (fun d t => itemText N d = .ok t) ds' ts := by
  induction h generalizing ts with
  | nil => cases ht; exact .nil
  | cons hd _ ih =>
    cases ht with
    | cons h1 h2 => exact .cons (by rw [hd.text]; exact h1) (ih _ h2)

theorem same_notBeam (ds ds' : List (Item N.F)) (h : List.Forall₂ (Same N) ds ds')
    (hb : ∀ d ∈ ds.dropLast, d.tabType ≠ .beamdyn) : ∀ d ∈ ds'.dropLast, d.tabType ≠ .beamdyn := by
  induction h with
  | nil => simp
  | cons hd hrest ih =>
    intro x hx
    cases hrest with
    | nil => simp at hx
    | cons h1 h2 =>
      rw [List.dropLast_cons_of_ne_nil (by simp)] at hx
      rcases List.mem_cons.1 hx with rfl | hx
      · rw [hd.tab]; exact hb _ (by rw [List.dropLast_cons_of_ne_nil (by simp)]; simp)
      · exact ih (fun d hd => hb d (by rw [List.dropLast_cons_of_ne_nil (by simp)]; simp [hd])) x hx

theorem same_newline (d d' : Item N.F) (h : Same N d d') (len j : Nat) :
    newlineAfter len j d' = newlineAfter len j d := by
  unfold newlineAfter
  rw [h.comment, h.tab, h.value]

theorem same_last (ds ds' : List (Item N.F)) (h : List.Forall₂ (Same N) ds ds') : lastNewline ds' = lastNewline ds := by
  have hlen := h.length_eq
  have hl : ∀ (ds ds' : List (Item N.F)), List.Forall₂ (Same N) ds ds' →
      (ds.getLast? = none ∧ ds'.getLast? = none) ∨ ∃ d d', ds.getLast? = some d ∧ ds'.getLast? = some d' ∧ Same N d d' := by
    intro ds ds' h
    induction h with
    | nil => exact Or.inl ⟨rfl, rfl⟩
    | cons h1 h2 ih =>
      right
      cases h2 with
      | nil => exact ⟨_, _, rfl, rfl, h1⟩
      | cons h3 h4 =>
        rcases ih with ⟨h, _⟩ | ⟨d, d', h5, h6, h7⟩
        · simp at h
        · exact ⟨d, d', by rw [List.getLast?_cons_cons]; exact h5, by rw [List.getLast?_cons_cons]; exact h6, h7⟩
  unfold lastNewline
  rcases hl ds ds' h with ⟨h1, h2⟩ | ⟨d, d', h1, h2, h3⟩
  · rw [h1, h2]
  · rw [h1, h2]
    simp only
    rw [same_newline d d' h3, hlen]

/-- the last line of a blade file is empty -/
theorem beam_last {b : List (Item N.F)} {v l : List Kind} {ds : List (Item N.F)} (h : Saved N b v l ds)
    (he : EndsBeam ds) (tss : List (List Str)) (ht : List.Forall₂ (ItemLines N) ds tss) :
    ∃ pre, tss.flatten = pre ++ [[]] ∧ pre ≠ [] := by
  have step : ∀ (d : Item N.F) ds tss, d.tabType ≠ .beamdyn → EndsBeam (d :: ds) →
      List.Forall₂ (ItemLines N) (d :: ds) tss →
      (EndsBeam ds → ∀ tss, List.Forall₂ (ItemLines N) ds tss → ∃ pre, tss.flatten = pre ++ [[]] ∧ pre ≠ []) →
      ∃ pre, tss.flatten = pre ++ [[]] ∧ pre ≠ [] := by
    intro d ds tss hb he ht ih
    cases ht with
    | cons h1 h2 =>
      obtain ⟨pre, h3, h4⟩ := ih (endsBeam_cons d ds hb he).2 _ h2
      rename_i ls tss
      exact ⟨ls ++ pre, by rw [List.flatten_cons, h3, List.append_assoc], by simp [h4]⟩
  induction h generalizing tss with
  | nil => obtain ⟨d, h, _⟩ := he; simp at h
  | plain b v l d ds hd _ ih => exact step _ _ _ (inner_plain hd).2 he ht (fun h tss ht => ih h tss ht)
  | valTable b v l k m d ds hd _ _ _ ih => exact step _ _ _ (inner_table hd).2 he ht (fun h tss ht => ih h tss ht)
  | labTable b v l k m d ds hd _ _ _ _ _ _ ih => exact step _ _ _ (inner_table hd).2 he ht (fun h tss ht => ih h tss ht)
  | polar b v l m d0 d ds hd0 hd _ _ _ ih =>
    exact step _ _ _ (inner_key hd0).2 he ht (fun he tss ht =>
      step _ _ _ (by rw [hd.tab]; simp) he ht (fun h tss ht => ih h tss ht))
  | guyan b v l k d0 d ds hd0 hd _ _ ih =>
    exact step _ _ _ (inner_key hd0).2 he ht (fun he tss ht =>
      step _ _ _ (by rw [hd.tab]; simp) he ht (fun h tss ht => ih h tss ht))
  | files b v l k d ds hd _ ih => exact step _ _ _ (inner_files hd).2 he ht (fun h tss ht => ih h tss ht)
  | channels b v l d hd => exact absurd he (not_endsBeam [d])
  | subdyn b v l d chans hd => exact absurd he (not_endsBeam (d :: chans.map Item.comment))
  | beam b v l d0 d hd =>
    obtain ⟨line, ls, h1, h2, h3, h4, _⟩ := beam_turn (inv_start b v l) d0 d hd
    have hd1 : ItemLines N d (ls ++ [[]]) := by
      refine ⟨by simp, h2, ?_⟩
      intro t ht
      rcases List.mem_append.1 ht with ht | ht
      · exact h4 t (by simp [ht])
      · simp at ht; subst ht; simp
    cases ht with
    | cons g1 g2 =>
      cases g2 with
      | cons g3 g4 =>
        cases g4
        rename_i ls0 ls1
        have := lines_unique d _ _ g3 hd1
        subst this
        exact ⟨ls0 ++ ls, by simp, by simp [h3]⟩

/-- lines all followed by a newline -/
theorem splitlines_nl (ls : List Str) (h : ∀ l ∈ ls, ∀ c ∈ l, isLineBreak c = false) (hne : ls ≠ []) :
    splitlines (joinWith ['\n'] (ls ++ [[]])) = ls := by
  induction ls with
  | nil => exact absurd rfl hne
  | cons l ls ih =>
    have hl := h l (by simp)
    rw [List.cons_append, joinWith_cons _ _ _ (by simp)]
    have := splitlinesAux_word [] l (joinWith ['\n'] (ls ++ [[]])) false hl (Or.inr rfl)
    have e : l ++ ['\n'] ++ joinWith ['\n'] (ls ++ [[]]) = l ++ '\n' :: joinWith ['\n'] (ls ++ [[]]) := by simp
    rw [e, splitlines, this]
    by_cases hn : ls = []
    · subst hn; rfl
    · have := ih (fun l hl => h l (by simp [hl])) hn
      rw [this]
      rfl

end Verif.FastRead
