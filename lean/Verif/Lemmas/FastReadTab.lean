import Verif.Lemmas.FastReadLoop
/-! Lemmas for C82, third part: tables, file lists and channel lists. -/
namespace Verif.FastRead
open Verif.Py Verif.FastDict Verif.FastLine Verif.FastTable

variable {N : Num}

/-! ### line breaks -/

theorem lineBreak_ws (c : Char) (h : isWs c = false) : isLineBreak c = false := by
  cases hb : isLineBreak c with
  | false => rfl
  | true =>
    exfalso
    have : isWs c = true := by
      unfold isLineBreak at hb
      unfold isWs
      simp only [Bool.or_eq_true, Bool.and_eq_true, decide_eq_true_eq, beq_iff_eq] at hb ⊢
      omega
    rw [h] at this; simp at this

theorem word_breaks {w : Str} (h : IsWord w) : ∀ c ∈ w, isLineBreak c = false :=
  fun c hc => lineBreak_ws c (h.2 c hc)

theorem breaks_join (sep : Str) (ws : List Str) (h1 : ∀ c ∈ sep, isLineBreak c = false)
    (h2 : ∀ w ∈ ws, ∀ c ∈ w, isLineBreak c = false) : ∀ c ∈ joinWith sep ws, isLineBreak c = false := by
  intro c hc
  rcases mem_joinWith _ _ _ hc with hc | ⟨w, hw, hc⟩
  · exact h1 c hc
  · exact h2 w hw c hc

theorem breaks_header (ws : List Str) (h : ∀ w ∈ ws, ∀ c ∈ w, isLineBreak c = false) :
    ∀ c ∈ headerText ws, isLineBreak c = false := by
  unfold headerText
  apply breaks_join
  · decide
  · intro w hw c hc
    obtain ⟨t, ht, rfl⟩ := List.mem_map.1 hw
    unfold pad15 at hc
    rcases List.mem_append.1 hc with hc | hc
    · exact h t ht c hc
    · rw [List.eq_of_mem_replicate hc]; decide

theorem breaks_append (a b : Str) (h1 : ∀ c ∈ a, isLineBreak c = false) (h2 : ∀ c ∈ b, isLineBreak c = false) :
    ∀ c ∈ a ++ b, isLineBreak c = false := by
  intro c hc
  rcases List.mem_append.1 hc with hc | hc
  · exact h1 c hc
  · exact h2 c hc

theorem unit_breaks {u : Str} (h : UnitOK u) : ∀ c ∈ u, isLineBreak c = false := by
  have := h.words.1
  rw [this]
  apply breaks_join
  · decide
  · intro w hw; exact word_breaks (words_isWord _ w hw)

/-! ### the header line -/

theorem head_cons {names : List Str} (h : HeadOK N names) : ∃ a b r, names = a :: b :: r := by
  have := h.good.two
  match names, this with
  | a :: b :: r, _ => exact ⟨a, b, r, rfl⟩
  | [], h => simp at h
  | [_], h => simp at h

theorem head_parse (hP : N.toPyFloat.Lawful) (allow : Bool) {names : List Str} (h : HeadOK N names) (a b : Str) (r : List Str)
    (hn : names = a :: b :: r) :
    parseLine N.toPyFloat allow (headerText names) = .ok ⟨b, .scalar (.str a), false, joinWith [' '] r, 0⟩ := by
  have ha := h.value a (by rw [hn]; rfl)
  have hb := h.label b (by rw [hn]; rfl)
  have hwa : IsWord a := h.good.word a (by rw [hn]; simp)
  have hwords : words (headerText names) = [a] ++ b :: r := by
    rw [words_header, flatMap_words_self _ h.good.word, hn]; rfl
  have ht : TextOK a [a] := by have := ha.text; rw [words_word hwa] at this; exact this
  refine parse_scalar N.toPyFloat hP allow _ a [a] b r (.str a) hwords ht hb ?_ ?_
  · unfold scalarOf
    rw [ha.notInt, if_neg (by simp), ha.notFloat]
    simp [ha.notBool]
  · intro he
    have := h.notEnd a (by rw [hn]; rfl)
    rw [this] at he; simp at he

/-! ### texts of a table -/

/-- the lines of a table -/
structure TabText (N : Num) (k : Kind) (m : Nat) (d : Item N.F) (names : List Str) (ls : List Str) : Prop where
  text : itemText N d = .ok (joinWith ['\n'] (headerText names :: ls))
  len : ls.length + 1 = m + k.nHeaders
  breaks : ∀ l ∈ headerText names :: ls, ∀ c ∈ l, isLineBreak c = false
  read : readTable N k.mix (headerText names :: ls) m k.nHeaders 0 = .ok ⟨d.value, d.names, d.units⟩

theorem mapM_cells (N : Num) (r : List N.F) (h : ∀ x ∈ r, ∃ t, N.cell x = some t ∧ NumTextOK N t x) :
    ∃ ts, r.mapM N.cell = some ts ∧ List.Forall₂ (NumTextOK N) ts r := by
  induction r with
  | nil => exact ⟨[], rfl, .nil⟩
  | cons x r ih =>
    obtain ⟨t, h1, h2⟩ := h x (by simp)
    obtain ⟨ts, h3, h4⟩ := ih (fun x hx => h x (by simp [hx]))
    exact ⟨t :: ts, by rw [List.mapM_cons, h1, h3]; rfl, .cons h2 h4⟩

theorem mapM_rows (N : Num) (w : Nat) (rows : List (List N.F)) (h : NumRowsOK N w rows) :
    ∃ tss, rows.mapM (fun r => r.mapM N.cell) = some tss ∧ RowTexts N tss rows w := by
  induction rows with
  | nil => exact ⟨[], rfl, .nil⟩
  | cons r rows ih =>
    obtain ⟨h1, h2⟩ := h r (by simp)
    obtain ⟨ts, h3, h4⟩ := mapM_cells N r h2
    obtain ⟨tss, h5, h6⟩ := ih (fun r hr => h r (by simp [hr]))
    exact ⟨ts :: tss, by rw [List.mapM_cons, h3, h5]; rfl, .cons ⟨h4, h1⟩ h6⟩

theorem rowTexts_breaks (N : Num) (w : Nat) (tss : List (List Str)) (rows : List (List N.F)) (h : RowTexts N tss rows w) :
    ∀ l ∈ tss.map (joinWith ['\t']), ∀ c ∈ l, isLineBreak c = false := by
  induction h with
  | nil => simp
  | cons hr _ ih =>
    intro l hl
    rw [List.map_cons] at hl
    rcases List.mem_cons.1 hl with rfl | hl
    · apply breaks_join
      · decide
      · have := hr.1
        clear hr ih hl
        generalize hg : (_ : List N.F) = rr at this
        clear hg
        induction this with
        | nil => simp
        | cons hx _ ih =>
          intro t ht
          rcases List.mem_cons.1 ht with rfl | ht
          · obtain ⟨_, _, _, _, _, hb, _⟩ := hx.facts; exact hb
          · exact ih t ht
    · exact ih l hl

theorem joinNl_cons (a : Str) (ls : List Str) (h : ls ≠ []) :
    joinWith ['\n'] (a :: ls) = a ++ '\n' :: joinWith ['\n'] ls := by
  rw [joinWith_cons _ _ _ h]; simp

/-- the line of units -/
def unitLines : Option (List Str) → List Str
  | none => []
  | some us => [headerText us]

/-- the text of a table of numbers -/
theorem num_text (N : Num) (names : List Str) (units : Option (List Str)) (rows : List (List N.F)) (tss : List (List Str))
    (h : rows.mapM (fun r => r.mapM N.cell) = some tss) (hl : tss.length = rows.length) :
    numText N (some names) units rows = .ok (joinWith ['\n'] (headerText names ::
      (unitLines units ++ tss.map (joinWith ['\t'])))) := by
  unfold numText cellsText
  rw [h]
  simp only [Option.isSome_some, if_true, List.map_id_fun, id_eq]
  have hid : rowsText id tss = joinWith ['\n'] (tss.map (joinWith ['\t'])) := by
    unfold rowsText; simp
  rw [hid]
  congr 1
  cases rows with
  | nil =>
    have : tss = [] := by simpa using hl
    subst this
    cases units <;> simp [joinWith, unitLines]
  | cons r rows =>
    have hne : tss.map (joinWith ['\t']) ≠ [] := by
      intro e; simp at e; rw [e] at hl; simp at hl
    cases units with
    | none =>
      simp only [List.isEmpty_cons, unitLines, List.nil_append]
      rw [if_neg (by simp), joinNl_cons _ _ hne]
      simp
    | some us =>
      simp only [List.isEmpty_cons, unitLines, List.singleton_append]
      rw [if_neg (by simp), joinNl_cons _ _ (by simp), joinNl_cons _ _ hne]
      simp

/-- the text of a table of words -/
theorem mix_text (N : Num) (names : List Str) (units : Option (List Str)) (rows : List (List (Cell N.F))) :
    mixText N (some names) units rows = .ok (joinWith ['\n'] (headerText names ::
      (unitLines units ++
        (rows.map (fun r => r.map (showCell N))).map (joinWith ['\t'])))) := by
  unfold mixText
  simp only
  have hid : rowsText (showCell N) rows = joinWith ['\n'] ((rows.map (fun r => r.map (showCell N))).map (joinWith ['\t'])) := by
    unfold rowsText; rw [List.map_map]; rfl
  rw [hid]
  congr 1
  cases rows with
  | nil => cases units <;> simp [joinWith, unitLines]
  | cons r rows =>
    have hne : ((r :: rows).map (fun r => r.map (showCell N))).map (joinWith ['\t']) ≠ [] := by simp
    cases units with
    | none =>
      simp only [List.isEmpty_cons, unitLines, List.nil_append]
      rw [if_neg (by simp), joinNl_cons _ _ hne]
      simp
    | some us =>
      simp only [List.isEmpty_cons, unitLines, List.singleton_append]
      rw [if_neg (by simp), joinNl_cons _ _ (by simp), joinNl_cons _ _ hne]
      simp

/-- the cells of a `mix` table come back -/
theorem mix_back (hP : N.toPyFloat.Lawful) (w : Nat) (rows : List (List (Cell N.F))) (h : MixRowsOK N w rows) (hw : 0 < w) :
    mixCells N ((rows.map (fun r => r.map (showCell N))).map (List.map some)) = rows ∧
      WordRows (rows.map (fun r => r.map (showCell N))) w := by
  obtain ⟨h1, h2, h3⟩ := h
  constructor
  · unfold mixCells
    rcases h2 with h2 | ⟨h2, r0, hr0, s0, hs0, hp0⟩
    · rw [if_pos]
      · rw [List.map_map, List.map_map]
        conv => rhs; rw [← List.map_id rows]
        apply List.map_congr_left
        intro r hr
        simp only [Function.comp, List.map_map, id_eq]
        conv => rhs; rw [← List.map_id r]
        apply List.map_congr_left
        intro c hc
        obtain ⟨x, rfl, _⟩ := h2 r hr c hc
        simp [showCell, cellFloat, hP.parse_repr]
      · simp only [List.all_eq_true, List.mem_map]
        rintro _ ⟨_, ⟨r, hr, rfl⟩, rfl⟩ o ho
        simp only [List.mem_map] at ho
        obtain ⟨_, ⟨c, hc, rfl⟩, rfl⟩ := ho
        obtain ⟨x, rfl, _⟩ := h2 r hr c hc
        simp [showCell, cellIsFloat, strIsFloat, hP.parse_repr]
    · rw [if_neg]
      · rw [List.map_map, List.map_map]
        conv => rhs; rw [← List.map_id rows]
        apply List.map_congr_left
        intro r hr
        simp only [Function.comp, List.map_map, id_eq]
        conv => rhs; rw [← List.map_id r]
        apply List.map_congr_left
        intro c hc
        obtain ⟨x, rfl, _⟩ := h2 r hr c hc
        simp [showCell, cellText]
      · simp only [List.all_eq_true]
        intro hall
        have := hall _ (List.mem_map_of_mem (List.mem_map_of_mem hr0)) (some s0)
          (List.mem_map_of_mem (f := some) (by simpa [showCell] using List.mem_map_of_mem (f := showCell N) hs0))
        simp [cellIsFloat, strIsFloat, hp0] at this
  · intro ts hts
    obtain ⟨r, hr, rfl⟩ := List.mem_map.1 hts
    refine ⟨?_, by simp [h1 r hr], ?_⟩
    · intro t ht
      obtain ⟨c, hc, rfl⟩ := List.mem_map.1 ht
      rcases h2 with h2 | ⟨h2, _⟩
      · obtain ⟨x, rfl, hx⟩ := h2 r hr c hc; exact hx
      · obtain ⟨x, rfl, hx⟩ := h2 r hr c hc; exact hx
    · cases r with
      | nil => have := h1 _ hr; simp at this; omega
      | cons c r => exact ⟨_, _, rfl, h3 _ hr c rfl⟩

theorem wordRows_breaks (tss : List (List Str)) (w : Nat) (h : WordRows tss w) :
    ∀ l ∈ tss.map (joinWith ['\t']), ∀ c ∈ l, isLineBreak c = false := by
  intro l hl
  obtain ⟨ts, hts, rfl⟩ := List.mem_map.1 hl
  apply breaks_join
  · decide
  · intro t ht; exact word_breaks ((h ts hts).1 t ht).1

/-- the lines of a table, and what reading them gives -/
theorem table_text (hP : N.toPyFloat.Lawful) (k : Kind) (m : Nat) (d : Item N.F) (h : TableOK N k m d) :
    ∃ names ls, d.names = some names ∧ HeadOK N names ∧ TabText N k m d names ls := by
  obtain ⟨label, value, isComment, descr, tabType, names?, units⟩ := d
  obtain ⟨_, hc, names, hn, hhead, hu, hcase⟩ := h
  simp only at hc hn hu hcase
  subst hc; subst hn
  have hne := names_ne hhead.good
  have hnames := headerNames_header names hhead.good
  have hnb : ∀ c ∈ headerText names, isLineBreak c = false :=
    breaks_header _ (fun w hw => word_breaks (hhead.good.word w hw))
  rcases hcase with ⟨hm, ht, rows, hv, hlen, hrows⟩ | ⟨hm, ht, rows, hv, hlen, hrows⟩
  · subst ht; subst hv
    obtain ⟨tss, ht1, ht2⟩ := mapM_rows N _ rows hrows
    have hl2 : tss.length = rows.length := ht2.length_eq
    have hb := rowTexts_breaks N _ tss rows ht2
    have htext : ∀ ls, ls = unitLines units ++ tss.map (joinWith ['\t']) →
        itemText N ⟨label, .num rows, false, descr, .numHeader, some names, units⟩
          = .ok (joinWith ['\n'] (headerText names :: ls)) := by
      rintro ls rfl
      exact num_text N names units rows tss ht1 hl2
    refine ⟨names, unitLines units ++ tss.map (joinWith ['\t']),
      rfl, hhead, htext _ rfl, ?_, ?_, ?_⟩
    · rcases hu with ⟨hk, us, rfl, _⟩ | ⟨hk, rfl⟩
      · simp [hk, hl2, hlen, unitLines]
      · simp [hk, hl2, hlen, unitLines]
    · intro l hl
      rcases List.mem_cons.1 hl with rfl | hl
      · exact hnb
      · rcases List.mem_append.1 hl with hl | hl
        · rcases hu with ⟨hk, us, rfl, _, huo⟩ | ⟨hk, rfl⟩
          · simp [unitLines] at hl; subst hl
            exact breaks_header _ (fun w hw => unit_breaks (huo w hw))
          · simp [unitLines] at hl
        · exact hb l hl
    · unfold readTable
      rw [hm, if_neg (by simp), ← hlen]
      rcases hu with ⟨hk, us, rfl, hul, huo⟩ | ⟨hk, rfl⟩
      · rw [hk]
        refine readNum_two N names us _ _ tss rows ht2 hne hnames ?_ hul huo
        exact headerUnits_line us huo _ (by omega) (by intro e; rw [e] at hul; exact hne (List.length_eq_zero_iff.1 hul.symm))
      · rw [hk]
        exact readNum_one N names _ tss rows ht2 hne hnames
  · subst ht; subst hv
    obtain ⟨hb1, hb2⟩ := mix_back hP _ rows hrows (by have := hhead.good.two; omega)
    have hb := wordRows_breaks _ _ hb2
    generalize htss : rows.map (fun r => r.map (showCell N)) = tss at hb1 hb2 hb
    have hl2 : tss.length = rows.length := by rw [← htss]; simp
    refine ⟨names, unitLines units ++ tss.map (joinWith ['\t']),
      rfl, hhead, ?_, ?_, ?_, ?_⟩
    · rw [← htss]
      exact mix_text N names units rows
    · rcases hu with ⟨hk, us, rfl, _⟩ | ⟨hk, rfl⟩
      · simp [hk, hl2, hlen, unitLines]
      · simp [hk, hl2, hlen, unitLines]
    · intro l hl
      rcases List.mem_cons.1 hl with rfl | hl
      · exact hnb
      · rcases List.mem_append.1 hl with hl | hl
        · rcases hu with ⟨hk, us, rfl, _, huo⟩ | ⟨hk, rfl⟩
          · simp [unitLines] at hl; subst hl
            exact breaks_header _ (fun w hw => unit_breaks (huo w hw))
          · simp [unitLines] at hl
        · exact hb l hl
    · unfold readTable
      rw [hm, if_pos rfl, ← hlen, ← hl2]
      rcases hu with ⟨hk, us, rfl, hul, huo⟩ | ⟨hk, rfl⟩
      · rw [hk]
        have := readMix_two N names us (headerText names) (headerText us) tss hb2 hne hnames
          (headerUnits_line us huo _ (by omega) (by intro e; rw [e] at hul; exact hne (List.length_eq_zero_iff.1 hul.symm))) hul huo
        rw [hb1] at this
        exact this
      · rw [hk]
        have := readMix_one N names (headerText names) tss hb2 hne hnames
        rw [hb1] at this
        exact this

/-! ### turns that read a table -/

theorem tableOK_same (k : Kind) (m : Nat) (d d' : Item N.F) (h : TableOK N k m d) (hl : d'.label = d.label)
    (hv : d'.value = d.value) (hc : d'.isComment = false) (ht : d'.tabType = d.tabType) (hn : d'.names = d.names)
    (hu : d'.units = d.units) : Same N d d' := by
  refine ⟨hl, hv, by rw [hc, h.comment], ht, hn, hu, ?_⟩
  unfold itemText
  rw [hc, h.comment, ht, hv, hn, hu]
  obtain ⟨_, names, hnames, _, _, hcase⟩ := ((⟨h.comment, h.head⟩ : _ ∧ _) : _ ∧ _)
  rcases hcase with ⟨_, ht, rows, hv, _⟩ | ⟨_, ht, rows, hv, _⟩
  · rw [ht, hv]
  · rw [ht, hv]

theorem tabType_of (k : Kind) (m : Nat) (d : Item N.F) (h : TableOK N k m d) : tabTypeOf k.mix = d.tabType := by
  obtain ⟨names, hnames, _, _, hcase⟩ := h.head
  unfold tabTypeOf
  rcases hcase with ⟨hm, ht, _⟩ | ⟨hm, ht, _⟩
  · rw [hm, ht]; rfl
  · rw [hm, ht]; rfl

theorem valTable_turn (hP : N.toPyFloat.Lawful) {b : List (Item N.F)} {v l : List Kind} {c : Nat} {s : St N.F}
    (h : Inv N b v l c s) (hv : v ⊆ valKinds) (n i : Nat) (rest : List Str) (k : Kind) (m : Nat) (d : Item N.F)
    (hd : TableOK N k m d) (hdim : DimIs b k m)
    (hfind : v.find? (fun q => q.detect == lower (((d.names.getD [])[0]?).getD [])) = some k)
    (hC : 100 * c ≤ 35 * n) :
    ∃ ls, ls ≠ [] ∧ itemText N d = .ok (joinWith ['\n'] ls) ∧ (∀ t ∈ ls, ∀ ch ∈ t, isLineBreak ch = false) ∧
      Goes N n s i (ls ++ rest) rest (b ++ [d]) (v.erase k) l c := by
  obtain ⟨names, ls, hn, hhead, htab⟩ := table_text hP k m d hd
  obtain ⟨x, y, r, hxy⟩ := head_cons hhead
  refine ⟨headerText names :: ls, by simp, htab.text, htab.breaks, ?_⟩
  have hp := head_parse hP s.allow hhead x y r hxy
  have hsp := hhead.special y (by rw [hxy]; rfl)
  have hk := h.kp (lower y)
  have hkv : k ∈ valKinds := hv (List.mem_of_find?_eq_some hfind)
  obtain ⟨_, hk2, hk3⟩ := vals_detect k hkv
  have hfind' : valKind (kpState (lower y) s) (Item.ofEntry (⟨y, .scalar (.str x), false, joinWith [' '] r, 0⟩ : Entry (EVal N.F))) = some k := by
    unfold valKind strValue Item.ofEntry
    simp only
    rw [hk.vals, ← hfind, hn, hxy]
    rfl
  have hsame : Same N d { Item.ofEntry (⟨y, .scalar (.str x), false, joinWith [' '] r, 0⟩ : Entry (EVal N.F)) with
      label := k.name ++ (kpState (lower y) s).off, value := d.value, names := d.names, units := d.units,
      tabType := tabTypeOf k.mix } := by
    refine tableOK_same k m d _ hd ?_ rfl rfl (tabType_of k m d hd) rfl rfl
    show k.name ++ (kpState (lower y) s).off = d.label
    rw [hk.off, List.append_nil, hd.label]
  have hinv := Inv.next (s := { kpState (lower y) s with vals := (kpState (lower y) s).vals.erase k })
    (v := v.erase k) ⟨hk.data, by rw [hk.vals], hk.labs, hk.off, hk.nodal, hk.wrong, hk.comments⟩ d _ hsame
  rw [hd.comment] at hinv
  simp only [Bool.false_eq_true, if_false, Nat.add_zero] at hinv
  refine ⟨headerText names, ls ++ rest, _, i + m + k.nHeaders, rfl, ?_, hinv⟩
  rw [turn_line _ _ _ _ _ hhead.noSection, linePart_table n s i _ _ _ hp h.off hsp.1 hsp.2]
  unfold tablePart
  rw [hfind']
  simp only
  unfold valTable
  rw [tabLines_dim hk k m hdim]
  simp only
  rw [if_neg (by omega)]
  have htake : (headerText names :: (ls ++ rest)).take ((m : Int).toNat + k.nHeaders) = headerText names :: ls := by
    rw [Int.toNat_natCast, ← htab.len, List.take_succ_cons, List.take_left]
  have hdrop : (headerText names :: (ls ++ rest)).drop ((m : Int).toNat + k.nHeaders) = rest := by
    rw [Int.toNat_natCast, ← htab.len, List.drop_succ_cons, List.drop_left]
  rw [htake, hdrop, Int.toNat_natCast, htab.read]
  simp only
  refine (finish_ok n _ _ _ _ (Or.inr ⟨?_, ?_⟩) hk.wrong ?_)
  · show hasSpecialChars (k.name ++ (kpState (lower y) s).off) = false
    rw [hk.off, List.append_nil]; exact hk2
  · show k.name ++ (kpState (lower y) s).off ≠ []
    rw [hk.off, List.append_nil]; exact hk3
  · show 100 * ((kpState (lower y) s).nComments + 0) ≤ _
    rw [hk.comments]; exact hC

theorem labTable_turn (hP : N.toPyFloat.Lawful) {b : List (Item N.F)} {v l : List Kind} {c : Nat} {s : St N.F}
    (h : Inv N b v l c s) (hv : v ⊆ valKinds) (hl : l ⊆ labKinds) (n i : Nat) (rest : List Str) (k : Kind) (m : Nat)
    (d : Item N.F) (hd : TableOK N k m d) (hdim : DimIs b k m) (hoff : k.nOffset = 0)
    (hna : k.detect ≠ "numalf".toList)
    (hnv : lower (((d.names.getD [])[0]?).getD []) ∉ tabValues)
    (hfind : l.find? (fun q => q.detect == lower (((d.names.getD [])[1]?).getD [])) = some k)
    (hC : 100 * c ≤ 35 * n) :
    ∃ ls, ls ≠ [] ∧ itemText N d = .ok (joinWith ['\n'] ls) ∧ (∀ t ∈ ls, ∀ ch ∈ t, isLineBreak ch = false) ∧
      Goes N n s i (ls ++ rest) rest (b ++ [d]) v (l.erase k) c := by
  obtain ⟨names, ls, hn, hhead, htab⟩ := table_text hP k m d hd
  obtain ⟨x, y, r, hxy⟩ := head_cons hhead
  refine ⟨headerText names :: ls, by simp, htab.text, htab.breaks, ?_⟩
  have hp := head_parse hP s.allow hhead x y r hxy
  have hsp := hhead.special y (by rw [hxy]; rfl)
  have hk := h.kp (lower y)
  have hkl : k ∈ labKinds := hl (List.mem_of_find?_eq_some hfind)
  obtain ⟨_, hk2, hk3, hk4, _⟩ := labs_facts k hkl
  have hh2 := hk4 hoff
  have hval : valKind (kpState (lower y) s) (Item.ofEntry (⟨y, .scalar (.str x), false, joinWith [' '] r, 0⟩ : Entry (EVal N.F))) = none := by
    apply valKind_none hk hv
    intro t ht
    simp only [Item.ofEntry] at ht
    injection ht with ht; injection ht with ht; injection ht with ht
    subst ht
    rw [hn, hxy] at hnv
    exact hnv
  have hfind' : (kpState (lower y) s).labs.find? (fun q => q.detect == lower y) = some k := by
    rw [hk.labs, ← hfind, hn, hxy]; rfl
  have hsame : Same N d { Item.ofEntry (⟨y, .scalar (.str x), false, joinWith [' '] r, 0⟩ : Entry (EVal N.F)) with
      label := k.name ++ (kpState (lower y) s).off, value := d.value, names := d.names, units := d.units,
      tabType := tabTypeOf k.mix } := by
    refine tableOK_same k m d _ hd ?_ rfl rfl (tabType_of k m d hd) rfl rfl
    show k.name ++ (kpState (lower y) s).off = d.label
    rw [hk.off, List.append_nil, hd.label]
  have hinv := Inv.next (s := { kpState (lower y) s with labs := (kpState (lower y) s).labs.erase k })
    (l := l.erase k) ⟨hk.data, hk.vals, by rw [hk.labs], hk.off, hk.nodal, hk.wrong, hk.comments⟩ d _ hsame
  rw [hd.comment] at hinv
  simp only [Bool.false_eq_true, if_false, Nat.add_zero] at hinv
  refine ⟨headerText names, ls ++ rest, _, i + (m + 2), rfl, ?_, hinv⟩
  rw [turn_line _ _ _ _ _ hhead.noSection, linePart_table n s i _ _ _ hp h.off hsp.1 hsp.2]
  unfold tablePart
  rw [hval]
  simp only
  rw [hfind']
  simp only
  unfold labTable
  rw [if_neg hna, if_neg (by omega)]
  unfold labTableAt
  have hdl : tabLines (kpState (lower y) s).data k.dim (kpState (lower y) s).off = .ok (m : Int) := by
    rw [hk.off]; exact tabLines_dim hk k m hdim
  rw [hdl]
  simp only
  rw [if_neg (by omega)]
  have htake : (headerText names :: (ls ++ rest)).take ((m : Int).toNat + k.nHeaders + k.nOffset) = headerText names :: ls := by
    rw [Int.toNat_natCast, hoff, Nat.add_zero, ← htab.len, List.take_succ_cons, List.take_left]
  have hdrop : (headerText names :: (ls ++ rest)).drop ((m : Int).toNat + 2 - k.nOffset) = rest := by
    rw [Int.toNat_natCast, hoff, Nat.sub_zero, ← hh2, ← htab.len, List.drop_succ_cons, List.drop_left]
  rw [htake, hdrop, Int.toNat_natCast, hoff, Nat.sub_zero, htab.read]
  simp only
  rw [if_neg hna, if_neg hna]
  have := finish_ok n { kpState (lower y) s with labs := (kpState (lower y) s).labs.erase k }
    { Item.ofEntry (⟨y, .scalar (.str x), false, joinWith [' '] r, 0⟩ : Entry (EVal N.F)) with
      label := k.name ++ (kpState (lower y) s).off, value := d.value, names := d.names, units := d.units,
      tabType := tabTypeOf k.mix } (i + (m + 2)) rest (Or.inr ⟨?_, ?_⟩) hk.wrong ?_
  · exact this
  · show hasSpecialChars (k.name ++ (kpState (lower y) s).off) = false
    rw [hk.off, List.append_nil]; exact hk2
  · show k.name ++ (kpState (lower y) s).off ≠ []
    rw [hk.off, List.append_nil]; exact hk3
  · show 100 * ((kpState (lower y) s).nComments + 0) ≤ _
    rw [hk.comments]; exact hC

end Verif.FastRead
