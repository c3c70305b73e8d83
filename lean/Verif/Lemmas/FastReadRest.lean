import Verif.Lemmas.FastReadTab
/-! Lemmas for C82, fourth part: polars, damping matrix, file lists and channel lists. -/
namespace Verif.FastRead
open Verif.Py Verif.FastDict Verif.FastLine Verif.FastTable

variable {N : Num}

theorem Inv.add {b : List (Item N.F)} {v l : List Kind} {c : Nat} {s : St N.F} (h : Inv N b v l c s)
    (d d' : Item N.F) (hs : Same N d d') : Inv N (b ++ [d]) v l c (s.add d') :=
  ⟨forall₂_snoc h.data _ _ hs, h.vals, h.labs, h.off, h.nodal, h.wrong, h.comments⟩

/-! ### the key line before a table -/

theorem key_turn (hP : N.toPyFloat.Lawful) {b : List (Item N.F)} {v l : List Kind} {c : Nat} {s : St N.F}
    (h : Inv N b v l c s) (hv : v ⊆ valKinds) (n i : Nat) (rest : List Str) (key : String) (d : Item N.F)
    (hd : KeyOK N key d) (k : Kind) (hfind : l.find? (fun q => q.detect == key.toList) = some k)
    (h1 : key.toList ≠ "numcoords".toList) (h2 : key.toList ≠ "re".toList) (h3 : key.toList ≠ "kp_total".toList) :
    ∃ line d', itemText N d = .ok line ∧ (∀ ch ∈ line, isLineBreak ch = false) ∧ Same N d d' ∧ d.isComment = false ∧
      d'.tabType = .notTab ∧ d'.names = none ∧ d'.units = none ∧ d'.isComment = false ∧
      turn N n s i line rest = labTable N n s k d' i line rest := by
  obtain ⟨e, rfl, hc, he, hbr, hsec, hnh, hlab⟩ := hd
  obtain ⟨r1, r2, r3⟩ := reread_label N.toPyFloat e
  have hp := (entry_reread N.toPyFloat hP s.allow e he).1
  refine ⟨entryText N.toPyFloat e, Item.ofEntry (reread N.toPyFloat e), itemText_ofEntry e, hbr, same_reread hP e he, hc,
    rfl, rfl, rfl, ?_, ?_⟩
  · show (reread N.toPyFloat e).isComment = false
    rw [r3, hc]
  · rw [turn_line _ _ _ _ _ hsec, linePart_table n s i _ _ _ hp h.off (by rw [r1, hlab]; exact h1) (by rw [r1, hlab]; exact h2)]
    have hks : kpState (lower (reread N.toPyFloat e).label) s = s := by
      unfold kpState; rw [r1, hlab, if_neg h3]
    rw [hks, r1, hlab]
    unfold tablePart
    rw [valKind_none h hv]
    · simp only
      rw [h.labs, hfind]
    · intro t ht
      simp only [Item.ofEntry, r2] at ht
      injection ht with ht
      exact hnh t ht

/-! ### polars -/

theorem numText_mem (N : Num) (ts : List Str) (xs : List N.F) (h : List.Forall₂ (NumTextOK N) ts xs) (t : Str)
    (ht : t ∈ ts) : ∃ x, NumTextOK N t x := by
  induction h with
  | nil => simp at ht
  | cons hx _ ih =>
    rcases List.mem_cons.1 ht with rfl | ht
    · exact ⟨_, hx⟩
    · exact ih ht

theorem e15_row (N : Num) (r : List N.F) (h : ∀ x ∈ r, NumTextOK N (N.e15 x) x) :
    List.Forall₂ (NumTextOK N) (r.map N.e15) r := by
  induction r with
  | nil => exact .nil
  | cons x r ih => exact .cons (h x (by simp)) (ih (fun y hy => h y (by simp [hy])))

theorem e15_rows (N : Num) (w : Nat) (rows : List (List N.F))
    (h : ∀ r ∈ rows, r.length = w ∧ ∀ x ∈ r, NumTextOK N (N.e15 x) x) :
    RowTexts N (rows.map (fun r => r.map N.e15)) rows w := by
  induction rows with
  | nil => exact .nil
  | cons r rows ih =>
    obtain ⟨h1, h2⟩ := h r (by simp)
    exact .cons ⟨e15_row N r h2, h1⟩ (ih (fun r hr => h r (by simp [hr])))

theorem polar_turn (hP : N.toPyFloat.Lawful) {b : List (Item N.F)} {v l : List Kind} {c : Nat} {s : St N.F}
    (h : Inv N b v l c s) (hv : v ⊆ valKinds) (hl : l ⊆ labKinds) (n i m : Nat) (rest : List Str) (d0 d : Item N.F)
    (hd0 : KeyOK N "numalf" d0) (hd : PolarOK N m d)
    (hdim : lookup (b ++ [d0]) "NumAlf".toList = some (.plain (.scalar (.int m))))
    (hmem : mkKind "numalf" "NumAlf" "AFCoeff" 2 0 false ∈ l) (hC : 100 * c ≤ 35 * n) :
    ∃ line ls, ls ≠ [] ∧ itemText N d0 = .ok line ∧ itemText N d = .ok (joinWith ['\n'] ls) ∧
      (∀ t ∈ line :: ls, ∀ ch ∈ t, isLineBreak ch = false) ∧ d0.isComment = false ∧
      Goes N n s i (line :: (ls ++ rest)) rest (b ++ [d0, d]) v l c := by
  have hfind : l.find? (fun q => q.detect == "numalf".toList) = some (mkKind "numalf" "NumAlf" "AFCoeff" 2 0 false) := by
    cases hf : l.find? (fun q => q.detect == "numalf".toList) with
    | none =>
      exfalso
      have := List.find?_eq_none.1 hf _ hmem
      revert this; decide
    | some k =>
      have h1 := List.mem_of_find?_eq_some hf
      have h2 := List.find?_some hf
      rw [(labs_facts k (hl h1)).2.2.2.2.2.2.2.2.1 (by simpa using h2)]
  obtain ⟨label, value, isComment, descr, tabType, names?, units⟩ := d
  obtain ⟨hlab, hcom, htab, names, us, rows, hn, hu, hval, hnok, hul, huo, hlen, hpos, hrows⟩ := hd
  simp only at hlab hcom htab hn hu hval
  subst hlab; subst hcom; subst htab; subst hn; subst hu; subst hval
  have hne := names_ne hnok
  have hrt := e15_rows N names.length rows hrows
  generalize htss : rows.map (fun r => r.map N.e15) = tss at hrt
  have hl2 : tss.length = rows.length := hrt.length_eq
  have hune : us ≠ [] := by intro e; rw [e] at hul; exact hne (List.length_eq_zero_iff.1 hul.symm)
  have hrn := headerNames_bang names hnok
  have hru := headerUnits_bang us huo names.length (by omega) hune
  have hread := readNum_two N names us ("! ".toList ++ headerText names) ("! ".toList ++ headerText us) tss rows hrt hne hrn hru hul huo
  generalize hL0 : "! ".toList ++ headerText names = L0 at hread
  generalize hL1 : "! ".toList ++ headerText us = L1 at hread
  have hk1 : (mkKind "numalf" "NumAlf" "AFCoeff" 2 0 false).detect = "numalf".toList := rfl
  obtain ⟨line, d', ht, hbr, hsame, hc0, _, _, _, _, hturn⟩ := key_turn hP h hv n i
    (L0 :: L1 :: (tss.map (joinWith ['\t']) ++ rest)) "numalf" d0 hd0 _ hfind (by decide) (by decide) (by decide)
  have hadd := h.add d0 d' hsame
  refine ⟨line, L0 :: L1 :: tss.map (joinWith ['\t']), by simp, ht, ?_, ?_, hc0, ?_⟩
  · show comText N (some names) (some us) rows = _
    unfold comText
    simp only
    have hne2 : tss.map (joinWith ['\t']) ≠ [] := by
      intro e; simp at e; rw [e] at hl2; simp at hl2; omega
    have hrl : rowsText N.e15 rows = joinWith ['\n'] (tss.map (joinWith ['\t'])) := by
      rw [← htss]; unfold rowsText; rw [List.map_map]; rfl
    rw [joinNl_cons _ _ (by simp), joinNl_cons _ _ hne2, hrl, ← hL0, ← hL1]
    simp
  · intro t ht'
    rcases List.mem_cons.1 ht' with rfl | ht'
    · exact hbr
    rcases List.mem_cons.1 ht' with rfl | ht'
    · rw [← hL0]
      exact breaks_append _ _ (by decide) (breaks_header _ (fun w hw => word_breaks (hnok.word w hw)))
    rcases List.mem_cons.1 ht' with rfl | ht'
    · rw [← hL1]
      exact breaks_append _ _ (by decide) (breaks_header _ (fun w hw => unit_breaks (huo w hw)))
    · exact rowTexts_breaks N _ tss rows hrt t ht'
  · have hsame2 : Same N (⟨"AFCoeff".toList, .num rows, false, descr, .numHeaderCom, some names, some us⟩ : Item N.F)
        ⟨"AFCoeff".toList ++ (s.add d').off, .num rows, false, [], .numHeaderCom, some names, some us⟩ := by
      refine ⟨?_, rfl, rfl, rfl, rfl, rfl, rfl⟩
      show "AFCoeff".toList ++ (s.add d').off = _
      rw [hadd.off, List.append_nil]
    have hinv := hadd.next _ _ hsame2
    rw [List.append_assoc] at hinv
    simp only [Bool.false_eq_true, if_false, Nat.add_zero] at hinv
    refine ⟨line, _, _, i + 1 + (m + 2), rfl, ?_, hinv⟩
    have happ : L0 :: L1 :: tss.map (joinWith ['\t']) ++ rest = L0 :: L1 :: (tss.map (joinWith ['\t']) ++ rest) := rfl
    rw [happ, hturn]
    unfold labTable
    rw [if_pos hk1]
    unfold labTableAt
    have hdl : tabLines (s.add d').data (mkKind "numalf" "NumAlf" "AFCoeff" 2 0 false).dim (s.add d').off = .ok (m : Int) := by
      show tabLines (s.add d').data (.var "NumAlf".toList) (s.add d').off = .ok (m : Int)
      unfold tabLines
      simp only
      rw [hadd.off, List.append_nil, lookup_same _ _ hadd.data, hdim]
    rw [hdl]
    simp only
    rw [if_neg (by omega)]
    have hm2 : (m : Int).toNat = tss.length := by rw [Int.toNat_natCast, hl2, hlen]
    have htake : (L0 :: L1 :: (tss.map (joinWith ['\t']) ++ rest)).take ((m : Int).toNat + (mkKind "numalf" "NumAlf" "AFCoeff" 2 0 false).nHeaders + (mkKind "numalf" "NumAlf" "AFCoeff" 2 0 false).nOffset)
        = L0 :: L1 :: tss.map (joinWith ['\t']) := by
      show (L0 :: L1 :: (tss.map (joinWith ['\t']) ++ rest)).take ((m : Int).toNat + 2) = _
      rw [hm2, List.take_succ_cons, List.take_succ_cons, List.take_left' (by simp)]
    have hdrop : (L0 :: L1 :: (tss.map (joinWith ['\t']) ++ rest)).drop ((m : Int).toNat + 2 - (mkKind "numalf" "NumAlf" "AFCoeff" 2 0 false).nOffset)
        = rest := by
      show (L0 :: L1 :: (tss.map (joinWith ['\t']) ++ rest)).drop ((m : Int).toNat + 2) = _
      rw [hm2, List.drop_succ_cons, List.drop_succ_cons, List.drop_left' (by simp)]
    rw [htake, hdrop]
    have hrd : readTable N (mkKind "numalf" "NumAlf" "AFCoeff" 2 0 false).mix (L0 :: L1 :: tss.map (joinWith ['\t'])) (m : Int).toNat
        (mkKind "numalf" "NumAlf" "AFCoeff" 2 0 false).nHeaders (mkKind "numalf" "NumAlf" "AFCoeff" 2 0 false).nOffset
        = .ok ⟨.num rows, some names, some us⟩ := by
      rw [hm2, hl2]; exact hread
    rw [hrd]
    simp only
    rw [if_pos hk1, if_pos hk1]
    have := finish_ok n (s.add d')
      (⟨"AFCoeff".toList ++ (s.add d').off, .num rows, false, [], .numHeaderCom, some names, some us⟩ : Item N.F)
      (i + 1 + (m + 2)) rest (Or.inr ⟨?_, ?_⟩) hadd.wrong ?_
    · exact this
    · show hasSpecialChars ("AFCoeff".toList ++ (s.add d').off) = false
      rw [hadd.off]; decide
    · show "AFCoeff".toList ++ (s.add d').off ≠ []
      rw [hadd.off]; decide
    · show 100 * ((s.add d').nComments + 0) ≤ _
      rw [hadd.comments]; exact hC

/-! ### the damping matrix -/

theorem guyan_read (N : Num) (line : Str) (w : Nat) (tss : List (List Str)) (rows : List (List N.F))
    (h : RowTexts N tss rows w) (hlen : rows.length = 6) (_hw : 0 < w)
    (hnum : ∀ ts, tss[0]? = some ts → 0 < N.numCount (joinWith ['\t'] ts)) (hbang : ∀ ts, tss[0]? = some ts → '!' ∉ joinWith ['\t'] ts) :
    readNum N (line :: tss.map (joinWith ['\t'])) 6 0 1 = .ok ⟨.num rows, none, none⟩ := by
  have hl2 : tss.length = rows.length := h.length_eq
  cases h with
  | nil => simp at hlen
  | cons hr hrest =>
    rename_i ts r tss rows
    have hn := hnum ts rfl
    have hb := hbang ts rfl
    have hrows := numRows_rows N w (ts :: tss) (r :: rows) (.cons hr hrest)
    have hrow := numTokens_row N ts r hr.1
    have hwl : (numTokens (joinWith ['\t'] ts)).length = w := by rw [hrow.2, hr.2]
    generalize hnames : (List.range (N.numCount (joinWith ['\t'] ts))).map (fun j => 'C' :: Nat.toDigits 10 j) = cn
    have hcn : cn ≠ [] := by
      rw [← hnames]; intro e; simp at e; omega
    have hext : extendNames cn w 0 = .ok cn := by
      unfold extendNames
      rw [if_neg]
      rintro ⟨_, h2⟩
      cases hla : cn.getLast? with
      | none => rw [hla] at h2; simp at h2
      | some x =>
        rw [hla] at h2
        have hx : x ∈ cn := List.mem_of_getLast? hla
        rw [← hnames] at hx
        obtain ⟨j, _, rfl⟩ := List.mem_map.1 hx
        simp only [Option.map_some] at h2
        injection h2 with h2
        have : ('C' :: Nat.toDigits 10 j).map Char.toLower = "nodecnt".toList := h2
        rw [List.map_cons] at this
        injection this with h3 _
        revert h3; decide
    have hp : parseNum (conv N) N.numCount (line :: (ts :: tss).map (joinWith ['\t'])) 6 0 1 = .ok ⟨r :: rows, []⟩ := by
      unfold parseNum
      rw [if_neg (by simp at hl2 hlen ⊢; omega)]
      have ht : tableNames N.numCount (line :: (ts :: tss).map (joinWith ['\t'])) 0 1 = .ok cn := by
        unfold tableNames
        rw [if_pos rfl]
        simp only [List.map_cons, List.getElem?_cons_succ, List.getElem?_cons_zero]
        rw [cleanAfterChar_none _ _ hb, hnames]
      rw [ht]
      simp only [List.map_cons, Nat.zero_add, List.drop_succ_cons, List.drop_zero, hwl]
      rw [if_neg (by rintro ⟨_, h⟩; exact hcn h), hext]
      simp only
      rw [List.map_cons] at hrows
      rw [hrows]
      simp
    unfold readNum
    rw [hp]
    simp [tableUnits]

theorem guyan_turn (hP : N.toPyFloat.Lawful) {b : List (Item N.F)} {v l : List Kind} {c : Nat} {s : St N.F}
    (h : Inv N b v l c s) (hv : v ⊆ valKinds) (hl : l ⊆ labKinds) (n i : Nat) (rest : List Str) (k : Kind) (d0 d : Item N.F)
    (hd0 : KeyOK N "guyandampsize" d0) (hd : GuyanOK N d)
    (hfind : l.find? (fun q => q.detect == "guyandampsize".toList) = some k) (hC : 100 * c ≤ 35 * n) :
    ∃ line ls, ls ≠ [] ∧ itemText N d0 = .ok line ∧ itemText N d = .ok (joinWith ['\n'] ls) ∧
      (∀ t ∈ line :: ls, ∀ ch ∈ t, isLineBreak ch = false) ∧ d0.isComment = false ∧
      Goes N n s i (line :: (ls ++ rest)) rest (b ++ [d0, d]) v (l.erase k) c := by
  have hkeq := (labs_facts k (hl (List.mem_of_find?_eq_some hfind))).2.2.2.2.2.2.2.2.2
    (by simpa using List.find?_some hfind)
  obtain ⟨label, value, isComment, descr, tabType, names?, units⟩ := d
  obtain ⟨hlab, hcom, htab, ⟨hn, hu⟩, rows, w, hval, hlen, hw, hrows, hcount⟩ := hd
  simp only at hlab hcom htab hn hu hval
  subst hlab; subst hcom; subst htab; subst hn; subst hu; subst hval
  obtain ⟨tss, hm, hrt⟩ := mapM_rows N w rows hrows
  have hl2 : tss.length = rows.length := hrt.length_eq
  have hr6 : tss.length = 6 := by rw [hl2, hlen]
  obtain ⟨line, d', ht, hbr, hsame, hc0, htt, hnn, huu, hcc, hturn⟩ := key_turn hP h hv n i
    (tss.map (joinWith ['\t']) ++ rest) "guyandampsize" d0 hd0 _ hfind (by decide) (by decide) (by decide)
  have hsame' : Same N d0 { label := d'.label ++ s.off, value := d'.value, descr := d'.descr } := by
    have : ({ label := d'.label ++ s.off, value := d'.value, descr := d'.descr } : Item N.F) = d' := by
      obtain ⟨a1, a2, a3, a4, a5, a6, a7⟩ := d'
      simp only at htt hnn huu hcc
      subst htt; subst hnn; subst huu; subst hcc
      rw [h.off, List.append_nil]
    rw [this]; exact hsame
  have hadd := h.add d0 _ hsame'
  have hfirst : ∀ ts, tss[0]? = some ts → 0 < N.numCount (joinWith ['\t'] ts) ∧ '!' ∉ joinWith ['\t'] ts := by
    intro ts hts
    cases hrt with
    | nil => simp at hts
    | cons hr hrest =>
      rename_i t0 r0 ts0 rs0
      simp at hts
      subst hts
      constructor
      · refine hcount r0 t0 rfl ?_
        rw [List.mapM_cons] at hm
        cases hq : List.mapM N.cell r0 with
        | none => rw [hq] at hm; simp at hm
        | some q =>
          rw [hq] at hm
          cases hq2 : List.mapM (fun r => List.mapM N.cell r) rs0 with
          | none => rw [hq2] at hm; simp at hm
          | some q2 =>
            rw [hq2] at hm
            simp at hm
            rw [hm.1]
      · apply notMem_join _ _ _ (by decide)
        have := hr.1
        clear hr hm hrest hl2 hr6 hturn
        intro t ht1 hbang
        obtain ⟨x, k, w, rfl, _, hchars, _⟩ := numText_mem N _ _ this t ht1
        rcases List.mem_append.1 hbang with hb | hb
        · have := List.eq_of_mem_replicate hb; revert this; decide
        · rcases hchars _ hb with h | h | h | h | h | h <;> revert h <;> decide
  have hread := guyan_read N line w tss rows hrt hlen hw (fun ts hts => (hfirst ts hts).1) (fun ts hts => (hfirst ts hts).2)
  refine ⟨line, tss.map (joinWith ['\t']), ?_, ht, ?_, ?_, hc0, ?_⟩
  · intro e; simp at e; rw [e] at hr6; simp at hr6
  · show numText N none none rows = _
    unfold numText cellsText
    rw [hm]
    have : rows.isEmpty = false := by
      cases rows with
      | nil => simp at hlen
      | cons a b => rfl
    simp [this, rowsText]
  · intro t ht'
    rcases List.mem_cons.1 ht' with rfl | ht'
    · exact hbr
    · exact rowTexts_breaks N _ tss rows hrt t ht'
  · have hsame2 : Same N (⟨"GuyanDampMatrix".toList, .num rows, false, descr, .numHeader, none, none⟩ : Item N.F)
        { d' with label := k.name ++ s.off, value := .num rows, names := none, units := none, tabType := .numHeader } := by
      obtain ⟨a1, a2, a3, a4, a5, a6, a7⟩ := d'
      simp only at htt hnn huu hcc
      subst htt; subst hnn; subst huu; subst hcc
      refine ⟨?_, rfl, rfl, rfl, rfl, rfl, rfl⟩
      show k.name ++ s.off = _
      rw [h.off, List.append_nil, hkeq]
    have hinv := Inv.next (s := { s.add { label := d'.label ++ s.off, value := d'.value, descr := d'.descr } with labs := s.labs.erase k })
      (l := l.erase k) ⟨hadd.data, hadd.vals, by rw [h.labs], hadd.off, hadd.nodal, hadd.wrong, hadd.comments⟩ _ _ hsame2
    rw [List.append_assoc] at hinv
    simp only [Bool.false_eq_true, if_false, Nat.add_zero] at hinv
    refine ⟨line, _, _, i + 7, rfl, ?_, hinv⟩
    rw [hturn]
    unfold labTable
    rw [if_neg (by rw [hkeq]; decide), if_pos (by rw [hkeq]; decide)]
    unfold labTableAt
    have hdl : tabLines (s.add { label := d'.label ++ s.off, value := d'.value, descr := d'.descr }).data k.dim
        (s.add { label := d'.label ++ s.off, value := d'.value, descr := d'.descr }).off = .ok (6 : Int) := by
      rw [hkeq]; rfl
    rw [hdl]
    simp only
    rw [if_neg (by decide)]
    have htake : (line :: (tss.map (joinWith ['\t']) ++ rest)).take ((6 : Int).toNat + k.nHeaders + k.nOffset)
        = line :: tss.map (joinWith ['\t']) := by
      rw [hkeq]
      show (line :: (tss.map (joinWith ['\t']) ++ rest)).take (6 + 1) = _
      rw [List.take_succ_cons, List.take_left' (by simp [hr6])]
    have hdrop : (line :: (tss.map (joinWith ['\t']) ++ rest)).drop ((6 : Int).toNat + 2 - k.nOffset) = rest := by
      rw [hkeq]
      show (line :: (tss.map (joinWith ['\t']) ++ rest)).drop (6 + 1) = _
      rw [List.drop_succ_cons, List.drop_left' (by simp [hr6])]
    rw [htake, hdrop]
    have hrd : readTable N k.mix (line :: tss.map (joinWith ['\t'])) (6 : Int).toNat k.nHeaders k.nOffset
        = .ok ⟨.num rows, none, none⟩ := by
      rw [hkeq]; exact hread
    rw [hrd]
    simp only
    rw [if_neg (by rw [hkeq]; decide), if_neg (by rw [hkeq]; decide)]
    have htype : tabTypeOf k.mix = .numHeader := by rw [hkeq]; rfl
    have hoff2 : (6 : Int).toNat + 2 - k.nOffset = 7 := by rw [hkeq]; rfl
    rw [htype, hoff2]
    refine finish_ok n { s.add { label := d'.label ++ s.off, value := d'.value, descr := d'.descr } with labs := s.labs.erase k }
      { d' with label := k.name ++ s.off, value := .num rows, names := none, units := none, tabType := .numHeader }
      (i + 7) rest (Or.inr ⟨?_, ?_⟩) h.wrong ?_
    · show hasSpecialChars (k.name ++ s.off) = false
      rw [h.off, hkeq]; decide
    · show k.name ++ s.off ≠ []
      rw [h.off, hkeq]; decide
    · show 100 * (s.nComments + (if d'.isComment then 1 else 0)) ≤ _
      rw [h.comments, hcc]; exact hC

/-! ### file lists -/

theorem mapM_ok {α β ε : Type} (g : α → Except ε β) (l : List α) (r : List β)
    (h : List.Forall₂ (fun a b => g a = .ok b) l r) : l.mapM g = .ok r := by
  induction h with
  | nil => rfl
  | cons h1 _ ih => rw [List.mapM_cons, h1, ih]; rfl

theorem files_turn (hP : N.toPyFloat.Lawful) {b : List (Item N.F)} {v l : List Kind} {c : Nat} {s : St N.F}
    (h : Inv N b v l c s) (hv : v ⊆ valKinds) (hl : l ⊆ labKinds) (n i : Nat) (rest : List Str) (k : Str × Str × Str)
    (d : Item N.F) (hd : FilesOK N k b d) (hC : 100 * c ≤ 35 * n) :
    ∃ ls, ls ≠ [] ∧ itemText N d = .ok (joinWith ['\n'] ls) ∧ (∀ t ∈ ls, ∀ ch ∈ t, isLineBreak ch = false) ∧
      Goes N n s i (ls ++ rest) rest (b ++ [d]) v l c := by
  obtain ⟨label, value, isComment, descr, tabType, names?, units⟩ := d
  obtain ⟨hkind, hlab, hfl, hcom, htab, ⟨hn, hu⟩, hdes, f, fs, hval, hne, hws, hstr, hend, htv, hsec, hdim⟩ := hd
  simp only at hlab hcom htab hn hu hval hfl hdes hsec
  subst hcom; subst htab; subst hn; subst hu; subst hval; subst hlab
  have hwf := hws f (by simp)
  have hLK : ∀ k ∈ filKinds, IsWord k.2.2 ∧ ',' ∉ k.2.2 ∧ strIsBool k.2.2 = false ∧ bangColon k.2.2 = false ∧
      lower k.2.2 = k.1 ∧ hasSpecialChars k.2.2 = false ∧ k.2.2 ≠ [] ∧ (∀ q ∈ labKinds, q.detect ≠ k.1) ∧
      k.1 ≠ "numcoords".toList ∧ k.1 ≠ "re".toList ∧ k.1 ≠ "kp_total".toList ∧
      filKinds.find? (fun q => q.1 == k.1) = some k := by
    unfold IsWord; decide
  obtain ⟨k1, k2, k3, k4, k5, k6, k7, k8, k9, k10, k11, k12⟩ := hLK k hkind
  have hlabel : LabelOK N.toPyFloat k.2.2 := ⟨k1, k2, hfl, k3, k4⟩
  have hline : (f ++ [' '] ++ k.2.2 ++ [' '] ++ descr) = f ++ ' ' :: (k.2.2 ++ ' ' :: descr) := by simp
  have hwords : words (f ++ [' '] ++ k.2.2 ++ [' '] ++ descr) = [f] ++ k.2.2 :: words descr := by
    rw [hline, words_word_cons hwf _ _ isWs_space, words_word_cons k1 _ _ isWs_space]; rfl
  generalize hL : f ++ [' '] ++ k.2.2 ++ [' '] ++ descr = line at hwords hsec
  have hp : parseLine N.toPyFloat s.allow line = .ok ⟨k.2.2, .scalar (.str f), false, descr, 0⟩ := by
    have ht : TextOK f [f] := by have := hstr.text; rw [words_word hwf] at this; exact this
    have := parse_scalar N.toPyFloat hP s.allow line f [f] k.2.2 (words descr) (.str f) hwords ht hlabel ?_ ?_
    · rw [← hdes] at this; exact this
    · unfold scalarOf
      rw [hstr.notInt, if_neg (by simp), hstr.notFloat]
      simp [hstr.notBool]
    · intro he
      rw [hend] at he; simp at he
  have hks : kpState (lower k.2.2) s = s := by unfold kpState; rw [k5, if_neg k11]
  refine ⟨line :: fs, by simp, ?_, ?_, ?_⟩
  · show (.ok (filText f k.2.2 descr fs) : Except WErr Str) = _
    unfold filText
    rw [hL, joinNl_cons _ _ hne]
    simp
  · intro t ht
    rcases List.mem_cons.1 ht with rfl | ht
    · rw [← hL]
      refine breaks_append _ _ (breaks_append _ _ (breaks_append _ _ (breaks_append _ _ (word_breaks hwf) (by decide))
        (word_breaks k1)) (by decide)) ?_
      rw [hdes]
      exact breaks_join _ _ (by decide) (fun w hw => word_breaks (words_isWord _ w hw))
    · exact word_breaks (hws t (by simp [ht]))
  · have hsame : Same N (⟨k.2.2, .fil (f :: fs), false, descr, .fil, none, none⟩ : Item N.F)
        { Item.ofEntry (⟨k.2.2, .scalar (.str f), false, descr, 0⟩ : Entry (EVal N.F)) with
          label := k.2.2 ++ s.off, value := .fil (f :: fs), tabType := .fil } := by
      have : k.2.2 ++ s.off = k.2.2 := by rw [h.off, List.append_nil]
      rw [this]
      exact ⟨rfl, rfl, rfl, rfl, rfl, rfl, rfl⟩
    have hinv := h.next _ _ hsame
    simp only [Bool.false_eq_true, if_false, Nat.add_zero] at hinv
    refine ⟨line, fs ++ rest, _, i + (fs.length + 1), rfl, ?_, hinv⟩
    rw [turn_line _ _ _ _ _ hsec, linePart_table n s i _ _ _ hp h.off (by rw [k5]; exact k9) (by rw [k5]; exact k10)]
    rw [hks]
    unfold tablePart
    rw [valKind_none h hv]
    · simp only
      rw [labs_none h hl _ (by rw [k5]; exact k8)]
      simp only
      have hff : filKinds.find? (fun q => q.1 == lower (Item.ofEntry (⟨k.2.2, .scalar (.str f), false, descr, 0⟩ : Entry (EVal N.F))).label) = some k := by
        show filKinds.find? (fun q => q.1 == lower k.2.2) = some k
        rw [k5]; exact k12
      rw [hff]
      simp only
      unfold filTable
      have hdl : tabLines s.data (.var k.2.1) [] = .ok ((fs.length + 1 : Nat) : Int) := by
        unfold tabLines
        simp only
        rw [List.append_nil, lookup_same _ _ h.data, hdim]
        simp
      rw [hdl]
      simp only
      rw [if_neg (by omega)]
      have htn : ((fs.length + 1 : Nat) : Int).toNat = fs.length + 1 := Int.toNat_natCast _
      rw [htn, List.take_succ_cons, List.take_left, List.drop_succ_cons, List.drop_left]
      have hpf : parseFil (line :: fs) (fs.length + 1) = .ok (f :: fs) := by
        unfold parseFil
        rw [if_neg (by simp)]
        refine mapM_ok _ _ _ (.cons ?_ ?_)
        · rw [hwords]
          simp only [List.singleton_append, strip_word hwf]
        · have : ∀ gs : List Str, (∀ g ∈ gs, IsWord g) → List.Forall₂ (fun (l : Str) w => (match words l with
              | [] => (.error .other : Except TErr Str) | w :: _ => .ok (strip w)) = .ok w) gs gs := by
            intro gs hg
            induction gs with
            | nil => exact .nil
            | cons g gs ih =>
              refine .cons ?_ (ih (fun g hg' => hg g (by simp [hg'])))
              rw [words_word (hg g (by simp))]
              simp only [strip_word (hg g (by simp))]
          exact this fs (fun g hg => hws g (by simp [hg]))
      rw [hpf]
      simp only
      refine finish_ok n s _ _ _ (Or.inr ⟨?_, ?_⟩) h.wrong ?_
      · show hasSpecialChars (k.2.2 ++ s.off) = false
        rw [h.off, List.append_nil]; exact k6
      · show k.2.2 ++ s.off ≠ []
        rw [h.off, List.append_nil]; exact k7
      · show 100 * (s.nComments + 0) ≤ _
        rw [h.comments]; exact hC
    · intro t ht
      simp only [Item.ofEntry] at ht
      injection ht with ht; injection ht with ht; injection ht with ht
      subst ht
      exact htv

end Verif.FastRead
