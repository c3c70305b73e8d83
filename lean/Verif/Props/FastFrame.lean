import Verif.Lemmas.FastFrame
import Verif.Lemmas.FlexPro
import Verif.Lemmas.FastReadEnd
import Mathlib.Algebra.BigOperators.Intervals
import Mathlib.Tactic
/-! # Properties of data frames of FAST input files -/
namespace Verif.FastFrame
open Verif.Py Verif.FastLine Verif.FastRead

/-- a value of a file -/
def exVal (l : String) (n : Int) : Item ℚ := { label := l.toList, value := .plain (.scalar (.int n)) }

/-- a table of a file -/
def exTab (l : String) (rows : List (List ℚ)) (names : List String) (units : Option (List String)) : Item ℚ :=
  { label := l.toList, value := .num rows, tabType := .numHeader, names := some (names.map String.toList), units := units.map (·.map String.toList) }

/-- **C124** The tables of a file without modes of a tower, which have different names and a label for each
column, are shown in as many data frames under their names; one table alone is shown as one data frame. -/
theorem C124 [Field F] (data : List (Item F)) (ht : ∀ d ∈ data, lower d.label ≠ lower "TwFAM1Sh(2)".toList)
    (h : ∀ d ∈ tables data, TableOk d) (hn : ((tables data).map Item.label).Nodup) :
    (tables data = [] → baseFrames data = .ok (.dict [])) ∧
    (∀ d, tables data = [d] → ∃ f, baseFrames data = .ok (.one f) ∧ Shows d f) ∧
    (2 ≤ (tables data).length → ∃ fs, baseFrames data = .ok (.dict fs) ∧
      List.Forall₂ (fun d kf => kf.1 = d.label ∧ Shows d kf.2) (tables data) fs) := by
  obtain ⟨fs, h1, h2⟩ := baseFrames_ok data Shows
    (fun d hd => itemFrame_ok data (isTower_no data ht) d (by simpa [tables] using (List.mem_filter.1 hd).2) (h d hd)) hn
  refine ⟨?_, ?_, ?_⟩
  · intro h0
    rw [h0] at h2
    cases h2
    exact h1
  · intro d hd
    rw [hd] at h2
    cases h2 with
    | cons h3 h4 =>
      cases h4
      exact ⟨_, h1, h3.2⟩
  · intro hl
    refine ⟨fs, ?_, h2⟩
    rw [h1]
    have := h2.length_eq
    match fs, this with
    | [], _ => rfl
    | [_], h => simp at h; omega
    | _ :: _ :: _, _ => rfl

/-- a file of two tables, one of them without units -/
def exTwo : List (Item ℚ) :=
  [exVal "n" 2, exTab "A" [[1, 2], [3, 4]] ["x", "y"] (some ["(m)", "(-)"]), exVal "k" 1, exTab "B" [[5]] ["z"] none]

example : (∀ d ∈ exTwo, lower d.label ≠ lower "TwFAM1Sh(2)".toList) ∧ (∀ d ∈ tables exTwo, TableOk d) ∧
    ((tables exTwo).map Item.label).Nodup ∧ baseFrames exTwo = .ok (.dict [
      ("A".toList, ⟨[.name "x_[m]".toList, .name "y_[-]".toList], [[.num 1, .num 2], [.num 3, .num 4]]⟩),
      ("B".toList, ⟨[.name "z".toList], [[.num 5]]⟩)]) := by
  refine ⟨by decide, ?_, by decide, by decide +kernel⟩
  have ht : tables exTwo = [exTab "A" [[1, 2], [3, 4]] ["x", "y"] (some ["(m)", "(-)"]), exTab "B" [[5]] ["z"] none] := by rfl
  rw [ht]
  intro d hd
  simp only [List.mem_cons, List.not_mem_nil, or_false] at hd
  rcases hd with rfl | rfl
  · refine ⟨by decide, by decide, ["x_[m]".toList, "y_[-]".toList], ⟨_, rfl, rfl, ?_⟩, .inl ⟨_, rfl, by simp⟩⟩
    exact .cons ⟨"[m]".toList, (unitShown_iff _ _).2 (by decide), by decide⟩
      (.cons ⟨"[-]".toList, (unitShown_iff _ _).2 (by decide), by decide⟩ .nil)
  · exact ⟨by decide, by decide, ["z".toList], ⟨_, rfl, rfl⟩, .inl ⟨_, rfl, by simp⟩⟩

/-- whole numbers only -/
abbrev toyQ : Num where
  F := ℚ
  parse s := if strIsInt s then some (pyInt s) else none
  repr x := showInt x.num
  zero := 0
  cell x := some (showInt x.num)
  e15 x := showInt x.num
  e24 x := showInt x.num
  f6 x := showInt x.num
  numCount s := ((words s).filter strIsInt).length

/-- the data frames of a text -/
def framesOf (text : Str) : Option (Except DErr (Out ℚ)) :=
  match readText toyQ 50 text with
  | .ok data => some (baseFrames data)
  | .error _ => none

/-- **C125** is violated: a table with more numbers in a row than names is read, and cannot be shown as a
data frame. -/
theorem C125_fails : framesOf "--- tower ---\n2 NTwInpSt\nHtFract TMassDen\n(-) (kg/m)\n0 1 2\n1 1 2\n".toList = some (.error .value) := by
  decide +kernel

/-- **C125** In general: a table of numbers with another number of columns than of labels raises a ValueError
in a file without modes of a tower. -/
theorem C125_width [Field F] (data pre : List (Item F)) (d : Item F) (post : List (Item F)) (hdata : data = pre ++ d :: post)
    (ht : ∀ d ∈ data, lower d.label ≠ lower "TwFAM1Sh(2)".toList)
    (h : ∀ d ∈ pre, IsTable d → TableOk d) (hd : IsTable d) (hb : d.tabType ≠ .beamdyn) (hlab : d.label ≠ "DampingCoeffs".toList)
    (ls : List Str) (hls : LabelsOf d ls) (r : List F) (rows : List (List F)) (hv : d.value = .num (r :: rows)) (hr : r.length ≠ ls.length) :
    baseFrames data = .error .value := by
  have hno := isTower_no data ht
  refine baseFrames_error data pre d post _ hdata ?_ ?_
  · intro d' hd'
    by_cases h' : IsTable d'
    · obtain ⟨f, hf, _⟩ := itemFrame_ok data hno d' h' (h d' hd' h')
      exact ⟨_, hf⟩
    · exact ⟨_, itemFrame_none data d' h'⟩
  · rw [itemFrame_num data d hd hb _ hv]
    obtain ⟨hc, ns, hns, hlen⟩ := tableCols_ok d ls hls
    simp only [numItem, hc, hno, bind, Except.bind, pure, Except.pure, Bool.false_eq_true, if_false, if_neg hlab, mkFrame]
    rw [if_neg (show ls.length ≠ widthOf d.names (r :: rows) from fun h => hr h.symm)]
    rfl

example : framesOf "--- tower ---\n2 NTwInpSt\nHtFract TMassDen\n(-) (kg/m)\n0 1\n1 1\n".toList =
    some (.ok (.one ⟨[.name "HtFract_[-]".toList, .name "TMassDen_[kg/m]".toList], [[.num 0, .num 1], [.num 1, .num 1]]⟩)) := by
  decide +kernel

/-- **C126** The table of an ElastoDyn tower file is shown with the four modes, each the polynomial of the
powers 2 to 6 of the height with the coefficients in the file. -/
theorem C126 [Field F] (d0 : Item F) (ds : List (Item F)) (h0 : lower d0.label ≠ lower "TwFAM1Sh(2)".toList)
    (c : Str → Nat → F)
    (hc : ∀ m ∈ ["TwFAM1Sh".toList, "TwFAM2Sh".toList, "TwSSM1Sh".toList, "TwSSM2Sh".toList], ∀ k ∈ Finset.Icc 2 6,
      Gives (d0 :: ds) (coefKey m k) (c m k))
    (d : Item F) (hd : tables (d0 :: ds) = [d]) (ls : List Str) (rows : List (List F)) (h : NumTable d ls rows) (hls : ls ≠ []) :
    baseFrames (d0 :: ds) = .ok (.one ⟨(ls ++ ["ShapeForeAft1_[-]".toList, "ShapeForeAft2_[-]".toList, "ShapeSideSide1_[-]".toList,
        "ShapeSideSide2_[-]".toList]).map .name,
      rows.map (fun r => (r ++ [poly (c "TwFAM1Sh".toList) (r.headD 0), poly (c "TwFAM2Sh".toList) (r.headD 0),
        poly (c "TwSSM1Sh".toList) (r.headD 0), poly (c "TwSSM2Sh".toList) (r.headD 0)]).map .num)⟩) := by
  obtain ⟨hlab, hb, hl, hv, hr⟩ := h
  have hyes := isTower_yes d0 ds h0 (gives_ne_none (d0 :: ds) _ _ (hc "TwFAM1Sh".toList (by simp) 2 (by decide)))
  have hdt : IsTable d := by
    have : d ∈ tables (d0 :: ds) := by simp [hd]
    simpa [tables] using (List.mem_filter.1 this).2
  obtain ⟨hcols, ns, hns, hlen⟩ := tableCols_ok d ls hl
  have hne : (rows.any List.isEmpty) = false := by
    rw [List.any_eq_false]
    intro r hr'
    have := hr r hr'
    cases r with
    | nil => exact absurd (List.length_eq_zero_iff.1 this.symm) hls
    | cons => simp
  have hm : towerModes.mapM (coefs (d0 :: ds)) = .ok (towerModes.map (fun m => [2, 3, 4, 5, 6].map (c m))) :=
    mapM_ok' _ _ _ (fun m hm => coefs_ok _ m (c m) (hc m hm))
  have hitem : itemFrame (d0 :: ds) d = .ok (some ⟨(ls ++ towerCols).map .name, rows.map (fun r => (r ++ [poly (c "TwFAM1Sh".toList) (r.headD 0),
      poly (c "TwFAM2Sh".toList) (r.headD 0), poly (c "TwSSM1Sh".toList) (r.headD 0), poly (c "TwSSM2Sh".toList) (r.headD 0)]).map .num)⟩) := by
    rw [itemFrame_num _ d hdt hb rows hv]
    simp only [numItem, hcols, hyes, addModes, hne, hm, bind, Except.bind, pure, Except.pure, if_true, if_neg hlab, Bool.false_eq_true, if_false]
    rw [widthOf_ok d ls ns rows hns hlen hr, mkFrame, if_pos (by simp [towerCols])]
    have he : (rows.map (fun r => r ++ (towerModes.map (fun m => [2, 3, 4, 5, 6].map (c m))).map (fun c => mode c (r.headD 0)))).map
        (fun x => x.map DCell.num) = rows.map (fun r => (r ++ [poly (c "TwFAM1Sh".toList) (r.headD 0),
          poly (c "TwFAM2Sh".toList) (r.headD 0), poly (c "TwSSM1Sh".toList) (r.headD 0), poly (c "TwSSM2Sh".toList) (r.headD 0)]).map .num) := by
      rw [List.map_map]
      apply List.map_congr_left
      intro r _
      simp only [Function.comp, ← mode_eq]
      rfl
    rw [he]
    rfl
  exact baseFrames_single _ d hd _ hitem

/-- **C126** A coefficient that is missing raises a KeyError. -/
theorem C126_missing [Field F] (d0 : Item F) (ds : List (Item F)) (h0 : lower d0.label ≠ lower "TwFAM1Sh(2)".toList)
    (hc : ∀ m ∈ ["TwFAM1Sh".toList, "TwFAM2Sh".toList, "TwSSM1Sh".toList, "TwSSM2Sh".toList], ∀ k ∈ Finset.Icc 2 6,
      lookup (d0 :: ds) (coefKey m k) = none ∨ ∃ c, Gives (d0 :: ds) (coefKey m k) c)
    (hfirst : lookup (d0 :: ds) "TwFAM1Sh(2)".toList ≠ none)
    (hmiss : ∃ m ∈ ["TwFAM1Sh".toList, "TwFAM2Sh".toList, "TwSSM1Sh".toList, "TwSSM2Sh".toList], ∃ k ∈ Finset.Icc 2 6,
      lookup (d0 :: ds) (coefKey m k) = none)
    (d : Item F) (hd : tables (d0 :: ds) = [d]) (ls : List Str) (rows : List (List F)) (h : NumTable d ls rows) (hls : ls ≠ []) :
    baseFrames (d0 :: ds) = .error .key := by
  obtain ⟨hlab, hb, hl, hv, hr⟩ := h
  have hyes := isTower_yes d0 ds h0 hfirst
  have hdm : d ∈ tables (d0 :: ds) := by simp [hd]
  have hdt : IsTable d := by simpa [tables] using (List.mem_filter.1 hdm).2
  obtain ⟨hcols, ns, hns, hlen⟩ := tableCols_ok d ls hl
  have hne : (rows.any List.isEmpty) = false := by
    rw [List.any_eq_false]
    intro r hr'
    have := hr r hr'
    cases r with
    | nil => exact absurd (List.length_eq_zero_iff.1 this.symm) hls
    | cons => simp
  have hk : ∀ m ∈ ["TwFAM1Sh".toList, "TwFAM2Sh".toList, "TwSSM1Sh".toList, "TwSSM2Sh".toList],
      (coefs (d0 :: ds) m = .error .key ∨ ∃ b, coefs (d0 :: ds) m = .ok b) ∧
      ((∃ k ∈ Finset.Icc 2 6, lookup (d0 :: ds) (coefKey m k) = none) → coefs (d0 :: ds) m = .error .key) := by
    intro m hm
    have hmem : ∀ k, k ∈ [2, 3, 4, 5, 6] → k ∈ Finset.Icc 2 6 := by
      intro k hk
      simp only [List.mem_cons, List.not_mem_nil, or_false] at hk
      rcases hk with rfl | rfl | rfl | rfl | rfl <;> decide
    by_cases hex : ∃ k ∈ Finset.Icc 2 6, lookup (d0 :: ds) (coefKey m k) = none
    · have : coefs (d0 :: ds) m = .error .key := by
        unfold coefs
        rw [coefKeys_eq, List.mapM_map]
        refine mapM_error _ _ _ (fun k hk => ?_) ?_
        · rcases hc m hm k (hmem k hk) with h | ⟨c, h⟩
          · left
            simp [scalar, h]
          · exact .inr ⟨_, scalar_gives _ _ _ h⟩
        · obtain ⟨k, hk, hkn⟩ := hex
          refine ⟨k, ?_, by simp [scalar, hkn]⟩
          rw [Finset.mem_Icc] at hk
          simp only [List.mem_cons, List.not_mem_nil, or_false]
          omega
      exact ⟨.inl this, fun _ => this⟩
    · refine ⟨.inr ?_, fun h => absurd h hex⟩
      have : ∀ k, ∃ c, k ∈ Finset.Icc 2 6 → Gives (d0 :: ds) (coefKey m k) c := by
        intro k
        by_cases hk : k ∈ Finset.Icc 2 6
        · rcases hc m hm k hk with h | ⟨c, h⟩
          · exact absurd ⟨k, hk, h⟩ hex
          · exact ⟨c, fun _ => h⟩
        · exact ⟨0, fun h => absurd h hk⟩
      choose c hcc using this
      exact ⟨_, coefs_ok _ m c hcc⟩
  have hm : towerModes.mapM (coefs (d0 :: ds)) = .error .key := by
    refine mapM_error _ _ _ (fun m hm => (hk m hm).1) ?_
    obtain ⟨m, hm, hkk⟩ := hmiss
    exact ⟨m, hm, (hk m hm).2 hkk⟩
  have hitem : itemFrame (d0 :: ds) d = .error .key := by
    rw [itemFrame_num _ d hdt hb rows hv]
    simp only [numItem, hcols, hyes, addModes, hne, hm, bind, Except.bind, if_true, Bool.false_eq_true, if_false]
  obtain ⟨pre, post, hpp⟩ := List.append_of_mem (List.mem_filter.1 hdm).1
  -- the items before the only table are no tables
  have hpre : ∀ d' ∈ pre, ∃ f, itemFrame (d0 :: ds) d' = .ok f := by
    intro d' hd'
    refine ⟨none, itemFrame_none _ d' (fun ht => ?_)⟩
    have : tables (d0 :: ds) = tables pre ++ tables (d :: post) := by
      rw [hpp]
      simp [tables]
    rw [hd] at this
    have h1 : d' ∈ tables pre := by
      unfold tables
      rw [List.mem_filter]
      exact ⟨hd', by simpa using ht⟩
    have h2 : d ∈ tables (d :: post) := by
      unfold tables
      rw [List.mem_filter]
      exact ⟨by simp, by simpa using hdt⟩
    have := congrArg List.length this
    have h3 := List.length_pos_of_mem h1
    have h4 := List.length_pos_of_mem h2
    simp at this
    omega
  exact baseFrames_error _ pre d post _ hpp hpre hitem

/-- the data frame, if it is one -/
def only : Except DErr (Out ℚ) → Option (Frame ℚ)
  | .ok (.one f) => some f
  | _ => none

/-- the coefficients of an ElastoDyn tower file, all of them given by a function -/
def exCoefs (c : Nat → Nat → Int) : List (Item ℚ) :=
  (List.range 4).flatMap (fun i => [2, 3, 4, 5, 6].map (fun k =>
    { label := coefKey (["TwFAM1Sh".toList, "TwFAM2Sh".toList, "TwSSM1Sh".toList, "TwSSM2Sh".toList].getD i []) k
      value := .plain (.scalar (.int (c i k))) }))

/-- an ElastoDyn tower file -/
def exTower : List (Item ℚ) :=
  exVal "NTwInpSt" 2 :: exTab "TowProp" [[0, 10], [1/2, 20]] ["HtFract", "TMassDen"] (some ["(-)", "(kg/m)"]) ::
    exCoefs (fun i k => i + k)

example : lower (exVal "NTwInpSt" 2).label ≠ lower "TwFAM1Sh(2)".toList ∧
    (∀ i < 4, ∀ k ∈ Finset.Icc 2 6, Gives exTower
      (coefKey (["TwFAM1Sh".toList, "TwFAM2Sh".toList, "TwSSM1Sh".toList, "TwSSM2Sh".toList].getD i []) k) ((i + k : Int) : ℚ)) ∧
    (only (baseFrames exTower)).map (fun f => (f.cols.length, f.rows.map (·[2]?))) =
      some (6, [some (.num 0), some (.num (2 / 4 + 3 / 8 + 4 / 16 + 5 / 32 + 6 / 64))]) := by
  refine ⟨by decide, ?_, ?_⟩
  · intro i hi k hk
    right
    refine ⟨i + k, ?_, rfl⟩
    rw [Finset.mem_Icc] at hk
    have : k = 2 ∨ k = 3 ∨ k = 4 ∨ k = 5 ∨ k = 6 := by omega
    have : i = 0 ∨ i = 1 ∨ i = 2 ∨ i = 3 := by omega
    rcases this with rfl | rfl | rfl | rfl <;> rcases ‹k = 2 ∨ k = 3 ∨ k = 4 ∨ k = 5 ∨ k = 6› with rfl | rfl | rfl | rfl | rfl <;> rfl
  · decide +kernel

/-- **C127** The sections of a BeamDyn blade file are shown in one data frame of 73 columns with different
labels, in which the column `Span` holds the positions and the columns `Kij` and `Mij` the terms in row `i`
and column `j` of the stiffness and mass matrices. -/
theorem C127 [Field F] (data : List (Item F)) (ht : ∀ d ∈ data, lower d.label ≠ lower "TwFAM1Sh(2)".toList)
    (d : Item F) (hd : (tables data).filter (fun d => d.label ≠ "DampingCoeffs".toList) = [d])
    (hdamp : ∀ d' ∈ tables data, d'.label = "DampingCoeffs".toList →
      d'.tabType = .numHeader ∧ ∃ ls rows, LabelsOf d' ls ∧ d'.value = .num rows)
    (secs : List (Section F)) (hb : d.tabType = .beamdyn) (hv : d.value = .beam (secs.map (fun s => (s.span, flat s.K, flat s.M)))) :
    ∃ f, baseFrames data = .ok (.one f) ∧ f.cols.length = 73 ∧ f.cols.Nodup ∧ HasCol f "Span".toList (secs.map (fun s => .num s.span)) ∧
      ∀ i j, HasCol f (termName 'K' i j) (secs.map (fun s => .num (s.K i j))) ∧
        HasCol f (termName 'M' i j) (secs.map (fun s => .num (s.M i j))) := by
  have hno := isTower_no data ht
  have hitem : itemFrame data d = .ok (some (beamItem (secs.map (fun s => (s.span, flat s.K, flat s.M))))) := by
    unfold itemFrame
    rw [hb, hv]
  refine ⟨_, baseFrames_one data (fun d => decide (d.label ≠ "DampingCoeffs".toList) && decide (IsTable d)) ?_ d ?_ _ hitem, ?_, ?_, ?_, ?_⟩
  · intro d' hd' hq
    by_cases h' : IsTable d'
    · have hl : d'.label = "DampingCoeffs".toList := by
        by_contra hc
        rw [decide_eq_true hc, decide_eq_true h'] at hq
        cases hq
      have hmem : d' ∈ tables data := by
        unfold tables
        rw [List.mem_filter]
        exact ⟨hd', by simpa using h'⟩
      obtain ⟨hty, ls, rows, hls, hvr⟩ := hdamp d' hmem hl
      rw [itemFrame_num data d' h' (by rw [hty]; decide) rows hvr]
      obtain ⟨hc, _⟩ := tableCols_ok d' ls hls
      simp only [numItem, hc, hno, bind, Except.bind, pure, Except.pure, Bool.false_eq_true, if_false, if_pos hl]
    · exact itemFrame_none data d' h'
  · rw [← hd]
    unfold tables
    rw [List.filter_filter]
  · show ((pick beamNames).map ColName.name).length = 73
    decide +kernel
  · exact (List.nodup_map_iff (fun _ _ h => by injection h)).2 beamNames_nodup
  · exact beam_hasCol secs 0 (by decide) _ (by rfl) _ (fun s => rfl)
  · intro i j
    have hi := i.isLt
    have hj := j.isLt
    constructor
    · refine beam_hasCol secs (1 + (6 * i.val + j.val)) (by omega) _ (kName i j) (fun s => s.K i j) (fun s => ?_)
      rw [Nat.add_comm 1, List.getElem?_cons_succ, List.getElem?_append_left (by rw [flat_length]; omega)]
      exact flat_get s.K i j
    · refine beam_hasCol secs (37 + (6 * i.val + j.val)) (by omega) _ (mName i j) (fun s => s.M i j) (fun s => ?_)
      rw [show 37 + (6 * i.val + j.val) = (36 + (6 * i.val + j.val)) + 1 by omega, List.getElem?_cons_succ,
        List.getElem?_append_right (by rw [flat_length]; omega), flat_length, Nat.add_sub_cancel_left]
      exact flat_get s.M i j

/-- sections of a blade -/
def exSecs : List (Section ℚ) := [⟨1 / 2, fun i j => i.val * 10 + j.val, fun i j => i.val * 10 + j.val + 100⟩]

/-- the table of sections -/
def exBeamItem : Item ℚ where
  label := "BeamProperties".toList
  value := .beam (exSecs.map (fun s => (s.span, flat s.K, flat s.M)))
  tabType := .beamdyn

/-- a BeamDyn blade file -/
def exBeam : List (Item ℚ) :=
  [exVal "station_total" 1, exBeamItem, exTab "DampingCoeffs" [[1, 2]] ["mu1", "mu2"] (some ["(-)", "(-)"])]

example : (∀ d ∈ exBeam, lower d.label ≠ lower "TwFAM1Sh(2)".toList) ∧
    ((tables exBeam).filter (fun d => d.label ≠ "DampingCoeffs".toList)).map Item.label = ["BeamProperties".toList] ∧
    (only (baseFrames exBeam)).map (fun f => (f.cols.take 3, f.rows.map (·.take 3))) =
      some ([.name "Span".toList, .name "K11".toList, .name "K22".toList], [[.num (1 / 2), .num 0, .num 11]]) :=
  ⟨by decide, by decide +kernel, by decide +kernel⟩

/-- **C128** The table of an ElastoDyn blade file is shown with the two flap modes and the edge mode, each the
polynomial of the powers 2 to 6 of the position with the coefficients in the file. -/
theorem C128 [Field F] [LinearOrder F] (T : Trig F) (module_ : Option Str) (data : List (Item F))
    (ht : ∀ d ∈ data, lower d.label ≠ lower "TwFAM1Sh(2)".toList)
    (hk : "NBlInpSt".toList ∈ labelsOf data) (hk' : "NumBlNds".toList ∉ labelsOf data) (c : Str → Nat → F)
    (hc : ∀ m ∈ ["BldFl1Sh".toList, "BldFl2Sh".toList, "BldEdgSh".toList], ∀ k ∈ Finset.Icc 2 6, Gives data (coefKey m k) (c m k))
    (d : Item F) (hd : tables data = [d]) (ls : List Str) (rows : List (List F)) (h : NumTable d ls rows)
    (j : Nat) (hj : OneCol ls "BlFract_[-]".toList j)
    (hnew : ∀ c ∈ ["ShapeFlap1_[-]".toList, "ShapeFlap2_[-]".toList, "ShapeEdge1_[-]".toList], c ∉ ls) :
    toDataFrame T module_ data = .ok (.one ⟨(ls ++ ["ShapeFlap1_[-]".toList, "ShapeFlap2_[-]".toList, "ShapeEdge1_[-]".toList]).map .name,
      rows.map (fun r => (r ++ [poly (c "BldFl1Sh".toList) (r.getD j 0), poly (c "BldFl2Sh".toList) (r.getD j 0),
        poly (c "BldEdgSh".toList) (r.getD j 0)]).map .num)⟩) := by
  have hk2 : FastTypes.fixedFormat module_ (data.map entryOf) = .edBlade := by
    unfold FastTypes.fixedFormat
    rw [keys_entryOf, if_neg hk', if_pos hk]
  have hdt := isTable_of data d (by simp [hd])
  have hbase := baseFrames_single data d hd _ (numFrame data (isTower_no data ht) d hdt ls rows h)
  unfold toDataFrame
  rw [hk2]
  simp only [edBladeFrames, hbase, bind, Except.bind, column_num ls rows _ j hj h.2.2.2.2,
    coefs_ok data _ _ (hc "BldFl1Sh".toList (by simp)), coefs_ok data _ _ (hc "BldFl2Sh".toList (by simp)),
    coefs_ok data _ _ (hc "BldEdgSh".toList (by simp)), List.map_map]
  have hnm : ∀ c ∈ ["ShapeFlap1_[-]".toList, "ShapeFlap2_[-]".toList, "ShapeEdge1_[-]".toList], ColName.name c ∉ ls.map ColName.name := by
    intro c hc hm
    obtain ⟨c', hc', he⟩ := List.mem_map.1 hm
    injection he with he
    exact hnew c hc (he ▸ hc')
  have hm : ∀ m : Str, ((DCell.num ∘ mode ([2, 3, 4, 5, 6].map (c m))) ∘ fun r : List F => r.getD j 0) =
      fun r => .num (poly (c m) (r.getD j 0)) := by
    intro m
    funext r
    simp only [Function.comp, mode_eq]
  simp only [hm]
  have e1 := setCol_new (⟨ls.map .name, rows.map (·.map .num)⟩ : Frame F) "ShapeFlap1_[-]".toList (fun r => r.map .num)
    (fun r => r.map .num ++ [.num (poly (c "BldFl1Sh".toList) (r.getD j 0))]) (fun r => .num (poly (c "BldFl1Sh".toList) (r.getD j 0)))
    rows _ rfl (hnm _ (by simp)) (fun _ => rfl)
  have e2 := setCol_new (⟨ls.map .name ++ [.name "ShapeFlap1_[-]".toList],
      rows.map (fun r => r.map .num ++ [.num (poly (c "BldFl1Sh".toList) (r.getD j 0))])⟩ : Frame F)
    "ShapeFlap2_[-]".toList _ (fun r => r.map .num ++ [.num (poly (c "BldFl1Sh".toList) (r.getD j 0)), .num (poly (c "BldFl2Sh".toList) (r.getD j 0))])
    (fun r => .num (poly (c "BldFl2Sh".toList) (r.getD j 0))) rows _ rfl (by
      rw [List.mem_append, not_or]
      exact ⟨hnm _ (by simp), by simp⟩) (fun _ => by simp)
  have e3 := setCol_new (⟨(ls.map .name ++ [.name "ShapeFlap1_[-]".toList]) ++ [.name "ShapeFlap2_[-]".toList],
      rows.map (fun r => r.map .num ++ [.num (poly (c "BldFl1Sh".toList) (r.getD j 0)), .num (poly (c "BldFl2Sh".toList) (r.getD j 0))])⟩ : Frame F)
    "ShapeEdge1_[-]".toList _ (fun r => (r ++ [poly (c "BldFl1Sh".toList) (r.getD j 0), poly (c "BldFl2Sh".toList) (r.getD j 0),
        poly (c "BldEdgSh".toList) (r.getD j 0)]).map .num)
    (fun r => .num (poly (c "BldEdgSh".toList) (r.getD j 0))) rows _ rfl (by
      rw [List.mem_append, List.mem_append, not_or, not_or]
      exact ⟨⟨hnm _ (by simp), by simp⟩, by simp⟩) (fun _ => by simp)
  simp only [setCols, e1, e2, e3, bind, Except.bind]
  have hcols : ls.map ColName.name ++ [ColName.name "ShapeFlap1_[-]".toList] ++ [ColName.name "ShapeFlap2_[-]".toList] ++
      [ColName.name "ShapeEdge1_[-]".toList] =
      (ls ++ ["ShapeFlap1_[-]".toList, "ShapeFlap2_[-]".toList, "ShapeEdge1_[-]".toList]).map ColName.name := by simp
  rw [hcols]
  rfl

/-- an ElastoDyn blade file; its edge mode is the fourth power -/
def exBlade : List (Item ℚ) :=
  [exVal "NBlInpSt" 2, exTab "BldProp" [[0, 10], [1/2, 20]] ["BlFract", "BMassDen"] (some ["(-)", "(kg/m)"])] ++
    ["BldFl1Sh".toList, "BldFl2Sh".toList, "BldEdgSh".toList].flatMap (fun m => [2, 3, 4, 5, 6].map (fun k =>
      { label := coefKey m k, value := .plain (.scalar (.int (if k = 4 then 1 else if m = "BldEdgSh".toList then 0 else 3))) }))

/-- angles and functions for the examples -/
def exTrig : Trig ℚ := ⟨fun x => x, fun x => 1 - x, 3⟩

example : (∀ d ∈ exBlade, lower d.label ≠ lower "TwFAM1Sh(2)".toList) ∧ "NBlInpSt".toList ∈ labelsOf exBlade ∧
    "NumBlNds".toList ∉ labelsOf exBlade ∧ OneCol ["BlFract_[-]".toList, "BMassDen_[kg/m]".toList] "BlFract_[-]".toList 0 ∧
    (only (toDataFrame exTrig none exBlade)).map (fun f => (f.cols.drop 4, f.rows.map (·.drop 4))) =
      some ([.name "ShapeEdge1_[-]".toList], [[.num 0], [.num (1 / 16)]]) := by
  refine ⟨by decide +kernel, by decide +kernel, by decide +kernel, ⟨rfl, ?_⟩, by decide +kernel⟩
  intro j hj
  match j with
  | 0 => rfl
  | 1 => exact absurd hj (by decide)
  | j + 2 => simp at hj

/-- **C128** A file without modes: without the column of positions, or with several tables or none, a KeyError
is raised. -/
theorem C128_none [Field F] [LinearOrder F] (T : Trig F) (module_ : Option Str) (data : List (Item F))
    (ht : ∀ d ∈ data, lower d.label ≠ lower "TwFAM1Sh(2)".toList)
    (hk : "NBlInpSt".toList ∈ labelsOf data) (hk' : "NumBlNds".toList ∉ labelsOf data)
    (h : ∀ d ∈ tables data, TableOk d) (hn : ((tables data).map Item.label).Nodup)
    (hbad : (tables data).length ≠ 1 ∨ ∃ d ls rows, tables data = [d] ∧ NumTable d ls rows ∧ "BlFract_[-]".toList ∉ ls) :
    toDataFrame T module_ data = .error .key := by
  have hk2 : FastTypes.fixedFormat module_ (data.map entryOf) = .edBlade := by
    unfold FastTypes.fixedFormat
    rw [keys_entryOf, if_neg hk', if_pos hk]
  unfold toDataFrame
  rw [hk2]
  rcases hbad with hbad | ⟨d, ls, rows, hd, hnt, hno⟩
  · obtain ⟨h0, _, h2⟩ := C124 data ht h hn
    by_cases hz : tables data = []
    · simp only [edBladeFrames, h0 hz, bind, Except.bind]
    · have : 2 ≤ (tables data).length := by
        have := List.length_pos_of_ne_nil hz
        omega
      obtain ⟨fs, hfs, _⟩ := h2 this
      simp only [edBladeFrames, hfs, bind, Except.bind]
  · have hdt := isTable_of data d (by simp [hd])
    have hbase := baseFrames_single data d hd _ (numFrame data (isTower_no data ht) d hdt ls rows hnt)
    simp only [edBladeFrames, hbase, bind, Except.bind, column]
    have : (ls.map ColName.name).findIdx? (fun x => decide (x = ColName.name "BlFract_[-]".toList)) = none := by
      rw [List.findIdx?_eq_none_iff]
      intro x hx
      obtain ⟨c, hc, rfl⟩ := List.mem_map.1 hx
      simp only [decide_eq_false_iff_not]
      intro he
      injection he with he
      exact hno (he ▸ hc)
    simp only [this]

example : toDataFrame exTrig none [exVal "NBlInpSt" 2, exTab "BldProp" [[0, 10]] ["BlFrac", "BMassDen"] none] = .error .key := by
  decide +kernel

/-- **C129** The table of an AeroDyn blade file is shown with the position of the aerodynamic centre and the
coordinates of the point at half chord, which is away from the aerodynamic centre by the part of the chord
between them, in the direction of the twisted chord. -/
theorem C129 [Field F] [CharZero F] [LinearOrder F] (T : Trig F) (module_ : Option Str) (data : List (Item F))
    (ht : ∀ d ∈ data, lower d.label ≠ lower "TwFAM1Sh(2)".toList) (hk : "NumBlNds".toList ∈ labelsOf data)
    (d : Item F) (hd : tables data = [d]) (ls : List Str) (rows : List (List F)) (h : NumTable d ls rows)
    (hl : lookup data "BldAeroNodes".toList = some (.num rows)) (h6 : 6 ≤ ls.length)
    (hnew : ∀ c ∈ ["c2_Crv_Approx_[m]".toList, "c2_Swp_Approx_[m]".toList, "AC_Approx_[-]".toList], c ∉ ls) :
    toDataFrame T module_ data = .ok (.one ⟨(ls ++ ["c2_Crv_Approx_[m]".toList, "c2_Swp_Approx_[m]".toList, "AC_Approx_[-]".toList]).map .name,
      rows.zipIdx.map (fun ri => (ri.1 ++ [
        ri.1.getD 1 0 + ri.1.getD 5 0 * (1 / 2 - acSpec rows.length ri.2) * T.sin (rad T (ri.1.getD 4 0)),
        ri.1.getD 2 0 + ri.1.getD 5 0 * (1 / 2 - acSpec rows.length ri.2) * T.cos (rad T (ri.1.getD 4 0)),
        acSpec rows.length ri.2]).map .num)⟩) := by
  have hk2 : FastTypes.fixedFormat module_ (data.map entryOf) = .adBlade := by
    unfold FastTypes.fixedFormat
    rw [keys_entryOf, if_pos hk]
  have hdt := isTable_of data d (by simp [hd])
  have hbase := baseFrames_single data d hd _ (numFrame data (isTower_no data ht) d hdt ls rows h)
  have hshort : (rows.any (fun r => decide (r.length < 6))) = false := by
    rw [List.any_eq_false]
    intro r hr
    simp only [decide_eq_true_eq]
    rw [h.2.2.2.2 r hr]
    omega
  unfold toDataFrame
  rw [hk2]
  simp only [adBladeFrames, hbase, bind, Except.bind, hl, hshort, Bool.false_eq_true, if_false]
  rw [zipWith_zipIdx rows (acSpec rows.length) _ _ (acLoc_eq rows), zipWith_zipIdx rows (acSpec rows.length) _ _ (acLoc_eq rows), acLoc_eq rows,
    map_zipIdx rows (fun r => r.map DCell.num)]
  simp only [List.map_map]
  have hnm : ∀ c ∈ ["c2_Crv_Approx_[m]".toList, "c2_Swp_Approx_[m]".toList, "AC_Approx_[-]".toList], ColName.name c ∉ ls.map ColName.name := by
    intro c hc hm
    obtain ⟨c', hc', he⟩ := List.mem_map.1 hm
    injection he with he
    exact hnew c hc (he ▸ hc')
  let u : List F × Nat → F := fun ri => ri.1.getD 1 0 + ri.1.getD 5 0 * (1 / 2 - acSpec rows.length ri.2) * T.sin (rad T (ri.1.getD 4 0))
  let v : List F × Nat → F := fun ri => ri.1.getD 2 0 + ri.1.getD 5 0 * (1 / 2 - acSpec rows.length ri.2) * T.cos (rad T (ri.1.getD 4 0))
  let w : List F × Nat → F := fun ri => acSpec rows.length ri.2
  have e1 := setCol_new (⟨ls.map .name, rows.zipIdx.map (fun ri => ri.1.map .num)⟩ : Frame F) "c2_Crv_Approx_[m]".toList (fun ri => ri.1.map .num)
    (fun ri => ri.1.map .num ++ [.num (u ri)]) (fun ri => .num (u ri))
    rows.zipIdx _ rfl (hnm _ (by simp)) (fun _ => rfl)
  have e2 := setCol_new (⟨ls.map .name ++ [.name "c2_Crv_Approx_[m]".toList], rows.zipIdx.map (fun ri => ri.1.map .num ++ [.num (u ri)])⟩ : Frame F)
    "c2_Swp_Approx_[m]".toList _ (fun ri => ri.1.map .num ++ [.num (u ri), .num (v ri)])
    (fun ri => .num (v ri)) rows.zipIdx _ rfl (by
      rw [List.mem_append, not_or]
      exact ⟨hnm _ (by simp), by simp⟩) (fun _ => by simp)
  have e3 := setCol_new (⟨(ls.map .name ++ [.name "c2_Crv_Approx_[m]".toList]) ++ [.name "c2_Swp_Approx_[m]".toList],
      rows.zipIdx.map (fun ri => ri.1.map .num ++ [.num (u ri), .num (v ri)])⟩ : Frame F)
    "AC_Approx_[-]".toList _ (fun ri => (ri.1 ++ [u ri, v ri, w ri]).map .num)
    (fun ri => .num (w ri)) rows.zipIdx _ rfl (by
      rw [List.mem_append, List.mem_append, not_or, not_or]
      exact ⟨⟨hnm _ (by simp), by simp⟩, by simp⟩) (fun _ => by simp)
  have hcols : ls.map ColName.name ++ [ColName.name "c2_Crv_Approx_[m]".toList] ++ [ColName.name "c2_Swp_Approx_[m]".toList] ++
      [ColName.name "AC_Approx_[-]".toList] =
      (ls ++ ["c2_Crv_Approx_[m]".toList, "c2_Swp_Approx_[m]".toList, "AC_Approx_[-]".toList]).map ColName.name := by simp
  simp only [setCols, bind, Except.bind]
  erw [e1]
  simp only
  erw [e2]
  simp only
  erw [e3]
  rw [← hcols]
  rfl

/-- **C129** The aerodynamic centre is between a quarter of the chord and half of it, which it is at the root
when there are seven nodes or more. -/
theorem C129_range [Field F] [LinearOrder F] [IsStrictOrderedRing F] (len i : Nat) :
    (1 / 4 : F) ≤ acSpec len i ∧ (acSpec len i : F) ≤ 1 / 2 ∧ (7 ≤ len → (acSpec len 0 : F) = 1 / 2) := by
  unfold acSpec
  refine ⟨?_, ?_, fun h => by rw [if_pos (by omega)]; simp⟩
  · split
    · next h =>
      by_cases hz : 15 * len / 100 - 1 = 0
      · rw [hz]
        norm_num
      · have hpos : (0 : F) < ((15 * len / 100 - 1 : Nat) : F) := by exact_mod_cast Nat.pos_of_ne_zero hz
        have hle : (i : F) ≤ ((15 * len / 100 - 1 : Nat) : F) := by exact_mod_cast (by omega : i ≤ 15 * len / 100 - 1)
        have : (i : F) / (4 * ((15 * len / 100 - 1 : Nat) : F)) ≤ 1 / 4 := by
          rw [div_le_div_iff₀ (by linarith) (by norm_num)]
          linarith
        linarith
    · exact le_refl _
  · split
    · have : (0 : F) ≤ (i : F) / (4 * ((15 * len / 100 - 1 : Nat) : F)) := by positivity
      linarith
    · norm_num

/-- an AeroDyn blade file of seven nodes -/
def exAero : List (Item ℚ) :=
  [exVal "NumBlNds" 7, exTab "BldAeroNodes" ((List.range 7).map (fun i => [(i : ℚ), 1, 2, 0, 0, 4, 1]))
    ["BlSpn", "BlCrvAC", "BlSwpAC", "BlCrvAng", "BlTwist", "BlChord", "BlAFID"] (some ["(m)", "(m)", "(m)", "(deg)", "(deg)", "(m)", "(-)"])]

example : (∀ d ∈ exAero, lower d.label ≠ lower "TwFAM1Sh(2)".toList) ∧ "NumBlNds".toList ∈ labelsOf exAero ∧
    (only (toDataFrame exTrig none exAero)).map (fun f => (f.cols.drop 7, f.rows.map (·.drop 7))) =
      some ([.name "c2_Crv_Approx_[m]".toList, .name "c2_Swp_Approx_[m]".toList, .name "AC_Approx_[-]".toList],
        [.num 1, .num 2, .num (1 / 2)] :: List.replicate 6 [.num 1, .num 3, .num (1 / 4)]) :=
  ⟨by decide +kernel, by decide +kernel, by decide +kernel⟩

/-- **C130** A table of an AeroDyn polar file with data for unsteady aerodynamics is shown with the normal force
coefficient, with and without the drag at zero lift, its linear part between -20 and 30 degrees, and its
values at the two points around each of the angles `alpha2`, `alpha1` and `alpha0`, when there are points
below these angles. -/
theorem C130 [Field F] [LinearOrder F] (T : Trig F) (module_ : Option Str) (data : List (Item F))
    (ht : ∀ d ∈ data, lower d.label ≠ lower "TwFAM1Sh(2)".toList)
    (hk : "NumCoords".toList ∈ labelsOf data ∧ "InterpOrd".toList ∈ labelsOf data)
    (hk' : "NumBlNds".toList ∉ labelsOf data ∧ "NBlInpSt".toList ∉ labelsOf data ∧ "MassMatrix".toList ∉ labelsOf data)
    (d : Item F) (hd : tables data = [d]) (p : PolarText F) (hp : p.Ok T data d) (hoff : p.off = []) :
    toDataFrame T module_ data = .ok (.one (p.frame T)) := by
  have hk2 : FastTypes.fixedFormat module_ (data.map entryOf) = .adPolar := by
    unfold FastTypes.fixedFormat
    rw [keys_entryOf, if_neg hk'.1, if_neg hk'.2.1, if_neg (fun h => hk'.2.2 h.1), if_pos hk]
  have hdt := isTable_of data d (by simp [hd])
  have hbase := baseFrames_single data d hd _ (numFrame data (isTower_no data ht) d hdt p.ls p.rows hp.1)
  unfold toDataFrame
  rw [hk2]
  have := polarFrame_ok T data p d hp
  rw [hoff] at this
  have hlab : labOffset "AFCoeff".toList = [] := by decide
  simp only [adPolarFrames, hbase, bind, Except.bind, List.mapM_cons, List.mapM_nil, hlab, this]
  rfl

/-- **C130** So are the tables of a file of several, named by their number. -/
theorem C130_tables [Field F] [LinearOrder F] (T : Trig F) (module_ : Option Str) (data : List (Item F))
    (ht : ∀ d ∈ data, lower d.label ≠ lower "TwFAM1Sh(2)".toList)
    (hk : "NumCoords".toList ∈ labelsOf data ∧ "InterpOrd".toList ∈ labelsOf data)
    (hk' : "NumBlNds".toList ∉ labelsOf data ∧ "NBlInpSt".toList ∉ labelsOf data ∧ "MassMatrix".toList ∉ labelsOf data)
    (hn : ((tables data).map Item.label).Nodup) (ps : List (PolarText F)) (h2 : 2 ≤ ps.length)
    (hp : List.Forall₂ (fun d p => p.Ok T data d ∧ d.label = "AFCoeff".toList ++ p.off ∧ ∃ s, '_' ∉ s ∧ p.off = '_' :: s) (tables data) ps) :
    toDataFrame T module_ data = .ok (.dict (ps.map (fun p => ("AFCoeff".toList ++ p.off, p.frame T)))) := by
  have hk2 : FastTypes.fixedFormat module_ (data.map entryOf) = .adPolar := by
    unfold FastTypes.fixedFormat
    rw [keys_entryOf, if_neg hk'.1, if_neg hk'.2.1, if_neg (fun h => hk'.2.2 h.1), if_pos hk]
  have hall : ∀ d ∈ tables data, ∃ f, itemFrame data d = .ok (some f) ∧ itemFrame data d = .ok (some f) := by
    intro d hd
    obtain ⟨p, _, hpd⟩ : ∃ p ∈ ps, p.Ok T data d := by
      clear hn h2 hk2
      revert hd
      generalize tables data = l at hp
      intro hd
      induction hp with
      | nil => simp at hd
      | cons h _ ih =>
        rcases List.mem_cons.1 hd with rfl | hd
        · exact ⟨_, by simp, h.1⟩
        · obtain ⟨p, hp, hpd⟩ := ih hd
          exact ⟨p, by simp [hp], hpd⟩
    have := numFrame data (isTower_no data ht) d (isTable_of data d hd) p.ls p.rows hpd.1
    exact ⟨_, this, this⟩
  obtain ⟨fs, hbase, hfs⟩ := baseFrames_ok data (fun d f => itemFrame data d = .ok (some f)) hall hn
  have hfs2 : fs = ps.map (fun p => ("AFCoeff".toList ++ p.off, (⟨p.ls.map .name, p.rows.map (·.map .num)⟩ : Frame F))) := by
    have htb : ∀ d ∈ tables data, IsTable d := fun d hd => isTable_of data d hd
    clear hbase hall hk2 hn h2
    revert hfs
    generalize tables data = l at hp htb
    intro hfs
    induction hp generalizing fs with
    | nil => cases hfs; rfl
    | cons h _ ih =>
      cases hfs with
      | cons g1 g2 =>
        rw [List.map_cons, ← ih _ (fun d hd => htb d (List.mem_cons_of_mem _ hd)) g2]
        congr 1
        have := numFrame data (isTower_no data ht) _ (htb _ (by simp)) _ _ h.1.1
        rw [this] at g1
        obtain ⟨g0, g1⟩ := g1
        injection g1 with g1
        injection g1 with g1
        rw [Prod.ext_iff]
        exact ⟨g0.trans h.2.1, g1.symm⟩
  have hout : baseFrames data = .ok (.dict (ps.map (fun p => ("AFCoeff".toList ++ p.off, (⟨p.ls.map .name, p.rows.map (·.map .num)⟩ : Frame F))))) := by
    rw [hbase, hfs2]
    match ps, h2 with
    | _ :: _ :: _, _ => rfl
  have hm : (ps.map (fun p => ("AFCoeff".toList ++ p.off, (⟨p.ls.map .name, p.rows.map (·.map .num)⟩ : Frame F)))).mapM
      (fun kf => (do return (kf.1, ← polarFrame T data (labOffset kf.1) kf.2) : Except DErr (Str × Frame F))) =
      .ok (ps.map (fun p => ("AFCoeff".toList ++ p.off, p.frame T))) := by
    rw [List.mapM_map]
    refine mapM_ok' _ _ _ (fun p hpm => ?_)
    obtain ⟨d, hpd, s, hs, hoff⟩ : ∃ d, p.Ok T data d ∧ ∃ s, '_' ∉ s ∧ p.off = '_' :: s := by
      clear hout hfs2 hfs hbase hall hk2 hn h2
      generalize tables data = l at hp
      induction hp with
      | nil => simp at hpm
      | cons h _ ih =>
        rcases List.mem_cons.1 hpm with rfl | hpm
        · exact ⟨_, h.1, h.2.2⟩
        · exact ih hpm
    have hlo : labOffset ("AFCoeff".toList ++ p.off) = p.off := by
      rw [hoff]
      exact labOffset_of s hs
    simp only [Function.comp, hlo, polarFrame_ok T data p d hpd]
    rfl
  unfold toDataFrame
  rw [hk2]
  simp only [adPolarFrames, hout, bind, Except.bind]
  erw [hm]
  match ps, h2 with
  | _ :: _ :: _, _ => rfl

/-- a polar file with data for unsteady aerodynamics and three angles -/
def exPolar : List (Item ℚ) :=
  [exVal "InterpOrd" 1, exVal "NumCoords" 0, exVal "alpha0" 0, exVal "alpha1" 60, exVal "alpha2" (-30), exVal "C_nalpha" 6, exVal "Cd0" 1,
    exTab "AFCoeff" [[-60, 2, 3], [-15, 2, 3], [30, 2, 3], [75, 2, 3]] ["Alpha", "Cl", "Cd"] (some ["(deg)", "(-)", "(-)"])]

/-- what it says -/
def exPolarText : PolarText ℚ :=
  ⟨[], ["Alpha_[deg]".toList, "Cl_[-]".toList, "Cd_[-]".toList], [[-60, 2, 3], [-15, 2, 3], [30, 2, 3], [75, 2, 3]], 0, 1, 2, 1, 6, 0, some (0, 2, 1)⟩

example : toDataFrame exTrig none exPolar = .ok (.one (exPolarText.frame exTrig)) ∧
    (exPolarText.frame exTrig).cols.drop 3 = [.name "Cn_[-]".toList, .name "Cn_Cd0off_[-]".toList, .name "Cn_pot_[-]".toList, .name "Cn_012_[-]".toList] ∧
    (exPolarText.frame exTrig).rows.map (·.drop 3) = [[.num 1, .num 2, .nan, .num 1], [.num (7 / 4), .num 2, .num (-3 / 2), .num (7 / 4)],
      [.num (5 / 2), .num 2, .num 3, .num (5 / 2)], [.num (13 / 4), .num 2, .nan, .num (13 / 4)]] := by
  refine ⟨?_, by decide +kernel, by decide +kernel⟩
  refine C130 exTrig none exPolar (by decide +kernel) (by decide +kernel) (by decide +kernel)
    (exTab "AFCoeff" exPolarText.rows ["Alpha", "Cl", "Cd"] (some ["(deg)", "(-)", "(-)"])) rfl exPolarText ?_ rfl
  refine ⟨⟨by decide, by decide, ⟨_, rfl, rfl, ?_⟩, rfl, by decide⟩, oneCol_of _ _ _ rfl (by decide), oneCol_of _ _ _ rfl (by decide),
    oneCol_of _ _ _ rfl (by decide), by decide, .inr ⟨1, rfl, by decide⟩, .inr ⟨6, rfl, by decide⟩, .inr ⟨0, rfl, by decide⟩,
    -30, 60, .inr ⟨-30, rfl, by decide⟩, .inr ⟨60, rfl, by decide⟩, ?_, ?_, ?_⟩
  · exact .cons ⟨"[deg]".toList, (unitShown_iff _ _).2 (by decide), by decide⟩
      (.cons ⟨"[-]".toList, (unitShown_iff _ _).2 (by decide), by decide⟩ (.cons ⟨"[-]".toList, (unitShown_iff _ _).2 (by decide), by decide⟩ .nil))
  · exact isLast_of _ _ _ (-1) (by decide +kernel) (by decide +kernel) (by decide +kernel)
  · exact isLast_of _ _ _ (1 / 2) (by decide +kernel) (by decide +kernel) (by decide +kernel)
  · exact isLast_of _ _ _ (-1 / 4) (by decide +kernel) (by decide +kernel) (by decide +kernel)

/-- two tables -/
def exPolars : List (Item ℚ) :=
  [exVal "InterpOrd" 1, exVal "NumCoords" 0, exVal "alpha0_1" 0, exVal "C_nalpha_1" 6, exVal "Cd0_1" 1,
    exTab "AFCoeff_1" [[15, 2, 3]] ["Alpha", "Cl", "Cd"] (some ["(deg)", "(-)", "(-)"]),
    exVal "alpha0_2" 0, exVal "C_nalpha_2" 3, exVal "Cd0_2" 2,
    exTab "AFCoeff_2" [[15, 2, 3]] ["Alpha", "Cl", "Cd"] (some ["(deg)", "(-)", "(-)"])]

/-- the names and the rows of several data frames -/
def many : Except DErr (Out ℚ) → List (Str × List (List (DCell ℚ)))
  | .ok (.dict fs) => fs.map (fun kf => (kf.1, kf.2.rows))
  | _ => []

example : many (toDataFrame exTrig none exPolars) =
    [("AFCoeff_1".toList, [[.num 15, .num 2, .num 3, .num (9 / 4), .num 2, .num (3 / 2)]]),
      ("AFCoeff_2".toList, [[.num 15, .num 2, .num 3, .num (9 / 4), .num (7 / 4), .num (3 / 4)]])] := by
  decide +kernel

/-- the data frames of the text of a polar file with the given lines before its table -/
def polarOf (lines : String) : Option (Except DErr (Out ℚ)) :=
  match readText toyQ 50 ("! --- AirfoilInfo ---\nDEFAULT InterpOrd\n1 NonDimArea\n0 NumCoords\n1 NumTabs\n! --- data ---\n1 Re\n0 Ctrl\n".toList ++
    lines.toList ++ "2 NumAlf\n! Alpha Cl Cd Cm\n! (deg) (-) (-) (-)\n0 0 1 0\n90 1 1 0\n".toList) with
  | .ok data => some (toDataFrame exTrig none data)
  | .error _ => none

/-- **C131** is violated: a polar file which says that it has no data for unsteady aerodynamics is read, and
cannot be shown as a data frame: a KeyError. -/
theorem C131_fails : polarOf "FALSE InclUAdata\n" = some (.error .key) := by
  decide +kernel

example : ((polarOf "TRUE InclUAdata\n2 alpha0\n3 alpha1\n-3 alpha2\n6 C_nalpha\n1 Cd0\n").bind (fun r => only r)).map (fun f => f.cols.length) = some 7 := by
  decide +kernel

/-- **C131** In general: without a value `Cd0` the table of a polar file cannot be shown. -/
theorem C131_without [Field F] [LinearOrder F] (T : Trig F) (module_ : Option Str) (data : List (Item F))
    (ht : ∀ d ∈ data, lower d.label ≠ lower "TwFAM1Sh(2)".toList)
    (hk : "NumCoords".toList ∈ labelsOf data ∧ "InterpOrd".toList ∈ labelsOf data)
    (hk' : "NumBlNds".toList ∉ labelsOf data ∧ "NBlInpSt".toList ∉ labelsOf data ∧ "MassMatrix".toList ∉ labelsOf data)
    (d : Item F) (hd : tables data = [d]) (ls : List Str) (rows : List (List F)) (h : NumTable d ls rows)
    (ja jl jd : Nat) (ha : OneCol ls "Alpha_[deg]".toList ja) (hl : OneCol ls "Cl_[-]".toList jl) (hc : OneCol ls "Cd_[-]".toList jd)
    (h0 : lookup data "Cd0".toList = none) :
    toDataFrame T module_ data = .error .key := by
  have hk2 : FastTypes.fixedFormat module_ (data.map entryOf) = .adPolar := by
    unfold FastTypes.fixedFormat
    rw [keys_entryOf, if_neg hk'.1, if_neg hk'.2.1, if_neg (fun h => hk'.2.2 h.1), if_pos hk]
  have hdt := isTable_of data d (by simp [hd])
  have hbase := baseFrames_single data d hd _ (numFrame data (isTower_no data ht) d hdt ls rows h)
  have hr := h.2.2.2.2
  have hs : scalar data ("Cd0".toList ++ []) = .error .key := by
    rw [List.append_nil]
    unfold scalar
    rw [h0]
  have hlab : labOffset "AFCoeff".toList = [] := by decide
  have hp : polarFrame T data [] ⟨ls.map .name, rows.map (·.map .num)⟩ = .error .key := by
    unfold polarFrame
    simp only [column_num ls rows _ _ ha hr, column_num ls rows _ _ hl hr, column_num ls rows _ _ hc hr, hs, bind, Except.bind, Functor.map, Except.map]
  unfold toDataFrame
  rw [hk2]
  simp only [adPolarFrames, hbase, bind, Except.bind, List.mapM_cons, hlab, hp]

example : lookup (exPolar.eraseIdx 6) "Cd0".toList = none ∧ (tables (exPolar.eraseIdx 6)).length = 1 ∧
    (match toDataFrame exTrig none (exPolar.eraseIdx 6) with | .error e => some e | .ok _ => none) = some DErr.key :=
  ⟨by rfl, by rfl, by decide +kernel⟩

/-- **C132** The loads of a superelement are shown with the time, the six forces of the interface, and one
column for each of the other degrees of freedom, numbered from one with at least three digits. -/
theorem C132 [Field F] [LinearOrder F] (T : Trig F) (data : List (Item F)) (n : Nat) (h6 : 6 ≤ n) (rows : List (List F)) (hne : rows ≠ [])
    (hk : "MassMatrix".toList ∈ labelsOf data) (hk' : "NumBlNds".toList ∉ labelsOf data ∧ "NBlInpSt".toList ∉ labelsOf data)
    (hn : lookup data "nDOF".toList = some (.plain (.scalar (.int n)))) (hl : lookup data "Loading".toList = some (.num rows))
    (hr : ∀ r ∈ rows, r.length = n + 1) :
    ∃ labels : List Str, labels.length = n - 6 ∧
      toDataFrame T (some "ExtPtfm".toList) data = .ok (.one ⟨(["Time_[s]".toList, "InpF_Fx_[N]".toList, "InpF_Fy_[N]".toList, "InpF_Fz_[N]".toList,
        "InpF_Mx_[Nm]".toList, "InpF_My_[Nm]".toList, "InpF_Mz_[Nm]".toList] ++ labels).map .name, rows.map (·.map .num)⟩) ∧
      ∀ (i : Nat) l, labels[i]? = some l → ∃ ds : Str, l = "CBF_".toList ++ ds ++ "_[-]".toList ∧ 3 ≤ ds.length ∧ (∀ c ∈ ds, c.isDigit = true) ∧ Nat.ofDigitChars 10 ds 0 = i + 1 := by
  have hk2 : FastTypes.fixedFormat (some "ExtPtfm".toList) (data.map entryOf) = .extPtfm := by
    unfold FastTypes.fixedFormat
    rw [keys_entryOf, if_neg hk'.1, if_neg hk'.2, if_pos ⟨hk, rfl⟩]
  refine ⟨(List.range (n - 6)).map (fun i => "CBF_".toList ++ pad3 (i + 1) ++ "_[-]".toList), by simp, ?_, ?_⟩
  · have htake : (loadCols n).take (n + 1) = ["Time_[s]".toList, "InpF_Fx_[N]".toList, "InpF_Fy_[N]".toList, "InpF_Fz_[N]".toList,
        "InpF_Mx_[Nm]".toList, "InpF_My_[Nm]".toList, "InpF_Mz_[Nm]".toList] ++
        (List.range (n - 6)).map (fun i => "CBF_".toList ++ pad3 (i + 1) ++ "_[-]".toList) := by
      unfold loadCols
      rw [List.take_append, List.take_of_length_le (by simp; omega), ← List.map_take, List.take_range]
      congr 3
      simp
    obtain ⟨r, rs, rfl⟩ := List.exists_cons_of_ne_nil hne
    have hw : widthOf none (r :: rs) = n + 1 := hr r (by simp)
    unfold toDataFrame
    rw [hk2]
    simp only [extPtfmFrames, hn, hl, hw]
    rw [if_neg (by omega), Int.toNat_natCast, htake]
    unfold mkFrame
    simp only
    rw [if_pos (by simp; omega)]
    rfl
  · intro i l hil
    rw [List.getElem?_map] at hil
    by_cases hi : i < n - 6
    · rw [List.getElem?_range hi] at hil
      simp only [Option.map_some, Option.some.injEq] at hil
      refine ⟨pad3 (i + 1), hil.symm, ?_, ?_, ?_⟩
      · unfold pad3
        rw [List.length_append, List.length_replicate]
        omega
      · intro c hc
        unfold pad3 at hc
        rcases List.mem_append.1 hc with hc | hc
        · rw [List.eq_of_mem_replicate hc]
          rfl
        · exact FastLine.toDigits_digit _ c hc
      · unfold pad3
        rw [ofDigits_zeros, Nat.ofDigitChars_toDigits (by decide) (by decide)]
    · rw [List.getElem?_eq_none (by simpa using hi)] at hil
      cases hil

/-- **C132** Loads with another number of columns raise a ValueError. -/
theorem C132_width [Field F] [LinearOrder F] (T : Trig F) (data : List (Item F)) (n : Nat) (r : List F) (rows : List (List F))
    (hk : "MassMatrix".toList ∈ labelsOf data) (hk' : "NumBlNds".toList ∉ labelsOf data ∧ "NBlInpSt".toList ∉ labelsOf data)
    (hn : lookup data "nDOF".toList = some (.plain (.scalar (.int n)))) (hl : lookup data "Loading".toList = some (.num (r :: rows)))
    (hr : r.length ≠ n + 1) : toDataFrame T (some "ExtPtfm".toList) data = .error .value := by
  have hk2 : FastTypes.fixedFormat (some "ExtPtfm".toList) (data.map entryOf) = .extPtfm := by
    unfold FastTypes.fixedFormat
    rw [keys_entryOf, if_neg hk'.1, if_neg hk'.2, if_pos ⟨hk, rfl⟩]
  have hlen : ((loadCols n).take (n + 1)).length = n + 1 := by
    unfold loadCols
    simp
    omega
  have hw : widthOf none (r :: rows) = r.length := rfl
  unfold toDataFrame
  rw [hk2]
  simp only [extPtfmFrames, hn, hl, hw]
  rw [if_neg (by omega), Int.toNat_natCast]
  unfold mkFrame
  simp only
  rw [if_neg (by rw [hlen]; exact fun h => hr h.symm)]
  rfl

/-- a superelement with eight degrees of freedom -/
def exLoads (row : List ℚ) : List (Item ℚ) :=
  [exVal "nDOF" 8, exTab "MassMatrix" [] [] none, exTab "Loading" [row] [] none]

example : lookup (exLoads [0, 1, 2, 3, 4, 5, 6, 7, 8]) "nDOF".toList = some (.plain (.scalar (.int 8))) ∧
    (only (toDataFrame exTrig (some "ExtPtfm".toList) (exLoads [0, 1, 2, 3, 4, 5, 6, 7, 8]))).map (fun f => f.cols.drop 6) =
      some [.name "InpF_Mz_[Nm]".toList, .name "CBF_001_[-]".toList, .name "CBF_002_[-]".toList] ∧
    (only (toDataFrame exTrig (some "ExtPtfm".toList) (exLoads [0, 1]))) = none :=
  ⟨by rfl, by decide +kernel, by decide +kernel⟩

end Verif.FastFrame
