import Verif.Lemmas.Hs2
import Verif.Lemmas.TurbSimTS
import Verif.Lemmas.Tecplot
import Verif.Lemmas.Hawc2Sel
import Verif.Lemmas.Bhawc
import Mathlib.Data.List.Forall2
import Mathlib.Data.List.TakeWhile
/-!
# HAWCStab2 files

Properties C179 to C184.
-/
namespace Verif.Hs2
open Verif.Py Verif.TurbSimTS

/-- the numbers of the examples: digits -/
def exFlt (w : Str) : Option Nat := if w ≠ [] ∧ w.all Char.isDigit then some (w.foldl (fun n c => 10 * n + (c.toNat - 48)) 0) else none

/-- a header with `n + 2` columns -/
def exHead (n : Nat) : Head := ⟨[' '], "   ".toList, "V [m/s".toList, [],
  ⟨"  ".toList, ['1'], "   ".toList, "Pitch Q [Nm".toList, []⟩ :: List.replicate n ⟨[' '], ['9'], [' '], "T[1".toList, []⟩, " 15".toList⟩

theorem exHead_good (n : Nat) : (exHead n).Good := by
  refine ⟨blank_space, (by unfold Blank; decide : Blank "   ".toList), (⟨by decide, by simp; decide, by simp; decide⟩ : Trimmed "V [m/s".toList),
    (by decide : ']' ∉ "V [m/s".toList), blank_nil, ?_, (by decide : ']' ∉ " 15".toList)⟩
  intro c hc
  rcases List.mem_cons.1 hc with rfl | hc
  · exact ⟨by unfold Blank; decide, ⟨by decide, by decide⟩, by unfold Blank; decide, ⟨by decide, by simp; decide, by simp; decide⟩, blank_nil, by decide, by decide⟩
  · rw [List.eq_of_mem_replicate hc]
    exact ⟨blank_space, ⟨by decide, by decide⟩, blank_space, ⟨by decide, by simp; decide, by simp; decide⟩, blank_nil, by decide, by decide⟩

/-- **C179**: the labels of a power file are the names with their units of its first line, with underscores for spaces, and its rows those of the other lines. -/
theorem C179_pwr {F : Type} (flt : Str → Option F) (s : Str) (h : Head) (ls : List Str) (rows : List (List F)) (hs : HasLines s (h.text :: ls)) (hg : h.Good)
    (hsp : ∀ c ∈ h.cols, c.Spaced) (hr : Rows flt ls rows) (r : List Str × List (List F)) (hok : readPwr flt s = .ok r) :
    r.1 = h.fields.map (fun f => under (f ++ [']'])) ∧ r.1.length = 15 ∧ r.2 = rows := by
  obtain ⟨x, h1, h2⟩ := pwr_cols s h hg hsp ls hs
  rw [readPwr, h1] at hok
  simp only [h2] at hok
  split at hok
  · cases hok
  · rename_i hn
    cases hd : data flt s 15 with
    | error e => rw [hd] at hok; cases hok
    | ok m =>
      rw [hd] at hok
      obtain rfl := Except.ok.inj hok
      exact ⟨rfl, by simpa using hn, data_rows flt s _ ls hs rows hr 15 m hd⟩

/-- **C180** for at least two rows: a power file with fifteen columns and an induction file with 38, 14 or 18 are read, with the rows of their lines.  (Missing for the
full property: a file of one row, see `C180_fails`.) -/
theorem C180_partial {F : Type} (flt : Str → Option F) (s : Str) (h : Head) (ls : List Str) (rows : List (List F)) (hs : HasLines s (h.text :: ls)) (hg : h.Good)
    (hr : Rows flt ls rows) (h2 : 2 ≤ rows.length) (hw : ∀ r ∈ rows, r.length = h.fields.length) :
    (h.fields.length = 15 → ∃ cols, readPwr flt s = .ok (cols, rows)) ∧
    (∀ k, (h.fields.length = 38 ∧ k = "ind".toList) ∨ (h.fields.length = 14 ∧ k = "fext".toList) ∨ (h.fields.length = 18 ∧ k = "defl".toList) →
      ∀ (per1000 : F → F) (pre w ext : Str) (u : Char) (x : F), (u = 'u' ∨ u = 'U') → w ≠ [] → (∀ c ∈ w, c.isDigit = true) → lower ext = ".ind".toList → flt w = some x →
        ∃ cols, readInd flt per1000 (pre ++ '_' :: u :: w ++ ext) s = .ok ⟨k, cols, rows, per1000 x⟩) := by
  obtain ⟨x, tl, h1, h2', h3⟩ := header_of s h hg ls hs
  have l1 := pieces_of "0 ".toList x tl h hg h2' ['0'] [' '] rfl ⟨by simp, by decide⟩ blank_space (by decide) h3
  have l2 := pieces_of "00".toList x tl h hg h2' ['0', '0'] [] rfl ⟨by simp, by decide⟩ blank_nil (by decide) h3
  have hf := fields_length h
  constructor
  · intro h15
    refine ⟨(pieces "0 ".toList x).map pwrLabel, ?_⟩
    rw [readPwr, h1]
    simp only
    rw [if_neg (by rw [l1]; simp; omega), data_ok flt s _ ls hs rows hr 15 (by decide) (fun r hr => by rw [hw r hr, h15]) h2]
  · intro k hk per1000 pre w ext u x' hu hne hd he hx
    refine ⟨(pieces "00".toList x).map indLabel, ?_⟩
    have hlen : ((pieces "00".toList x).map indLabel).length = h.fields.length := by rw [l2]; simp; omega
    have hty : indType h.fields.length = some k := by
      rcases hk with ⟨e, rfl⟩ | ⟨e, rfl⟩ | ⟨e, rfl⟩ <;> rw [e] <;> rfl
    have h2f : 2 ≤ h.fields.length := by omega
    rw [readInd, h1]
    simp only [hlen, hty]
    rw [data_ok flt s _ ls hs rows hr _ h2f hw h2]
    simp only
    rw [wind_of pre w ext u hu hne hd he, digits_strip w hne hd, hx]

/-- a row of the examples -/
def exRow (n : Nat) : Str := joinWith [' '] (List.replicate n ['7'])

theorem exRows (n : Nat) (h : n ≠ 0) (m : Nat) : Rows exFlt (List.replicate m (exRow n)) (List.replicate m (List.replicate n 7)) := by
  have hw : words (exRow n) = List.replicate n ['7'] := words_join _ fun w hw => by
    rw [List.eq_of_mem_replicate hw]; exact ⟨by decide, by decide⟩
  have hm : (List.replicate n ['7']).mapM exFlt = some (List.replicate n 7) := by
    clear h hw
    induction n with
    | zero => rfl
    | succ n ih => rw [List.replicate_succ, List.mapM_cons, ih]; rfl
  have hh : '#' ∉ exRow n := fun hm => by
    rcases mem_joinWith _ _ _ hm with hm | ⟨w, hw, hm⟩
    · exact absurd hm (by decide)
    · rw [List.eq_of_mem_replicate hw] at hm; exact absurd hm (by decide)
  induction m with
  | zero => exact .nil
  | succ m ih =>
    have := Rows.row (exRow n) [] (List.replicate n 7) _ _ hh (.inl rfl) (by rw [hw]; simpa using h) (by rw [hw]; exact hm) ih
    rw [List.append_nil] at this
    exact this

/-- an example of a file with `n + 2` columns and `m` rows -/
def exText (n m : Nat) : Str := HawcAe.unlines ((exHead n).text :: List.replicate m (exRow (n + 2)))

theorem exPwr : readPwr exFlt (exText 13 2) = .ok (["V_[m/s]".toList, "Pitch_Q_[Nm]".toList] ++ List.replicate 13 "T[1]".toList, List.replicate 2 (List.replicate 15 7)) := by
  have hs : HasLines (exText 13 2) ((exHead 13).text :: List.replicate 2 (exRow 15)) := ⟨by decide +kernel, .inl rfl⟩
  obtain ⟨⟨cols, hc⟩, _⟩ := C180_partial exFlt _ (exHead 13) _ _ hs (exHead_good 13) (exRows 15 (by decide) 2) (by decide) (by decide +kernel) |>.imp (fun f => f rfl) id
  have := C179_pwr exFlt _ (exHead 13) _ _ hs (exHead_good 13) (by
    intro c hc
    rcases List.mem_cons.1 hc with rfl | hc
    · exact ⟨_, rfl⟩
    · rw [List.eq_of_mem_replicate hc]; exact ⟨[], rfl⟩) (exRows 15 (by decide) 2) _ hc
  rw [hc]
  exact congrArg Except.ok (Prod.ext (this.1.trans (by decide +kernel)) this.2.2)

example : readPwr exFlt (exText 13 2) = .ok (["V_[m/s]".toList, "Pitch_Q_[Nm]".toList] ++ List.replicate 13 "T[1]".toList, List.replicate 2 (List.replicate 15 7)) := exPwr

/-- C180 fails: with one row there is an IndexError -/
theorem C180_fails : readPwr exFlt (exText 13 1) = .error .index ∧ readInd exFlt (· / 1000) "a_u8000.ind".toList (exText 12 1) = .error .index := by
  decide +kernel

/-- **C181** for files whose first line begins with `#`: one with another number of columns is refused with WrongFormatError.  (Missing for the full property: a
file whose first line does not begin with `#`, see `C181_fails`.) -/
theorem C181_partial {F : Type} (flt : Str → Option F) (s lead x : Str) (ls : List Str) (hs : HasLines s ((lead ++ '#' :: x) :: ls)) (hl : ∀ c ∈ lead, isWs c = true) :
    (x.count ']' ≠ 15 → readPwr flt s = .error .wrong) ∧
    (x.count ']' ≠ 38 → x.count ']' ≠ 14 → x.count ']' ≠ 18 → ∀ per1000 filename, readInd flt per1000 filename s = .error .wrong) := by
  obtain ⟨y, hy, hc⟩ := header_hash s lead x ls hs hl
  constructor
  · intro h
    rw [readPwr, hy]
    simp only
    rw [if_pos]
    rw [List.length_map, pieces_length _ _ (by decide), hc]
    exact h
  · intro h1 h2 h3 per1000 filename
    rw [readInd, hy]
    simp only [List.length_map, pieces_length _ _ (by decide : ']' ∉ "00".toList), hc]
    rw [indType, if_neg h1, if_neg h2, if_neg h3]

example : readPwr exFlt "# V [m/s] 1 P [kW] 2\n1 2\n".toList = .error .wrong ∧ readInd exFlt (· / 1000) [] "# V [m/s] 1 P [kW] 2\n1 2\n".toList = .error .wrong :=
  have h := C181_partial exFlt _ [] " V [m/s] 1 P [kW] 2".toList ["1 2".toList] ⟨by decide, .inl (by decide)⟩ (by simp)
  ⟨h.1 (by decide), h.2 (by decide) (by decide) (by decide) _ _⟩

/-- C181 fails: a file whose first line does not begin with `#` gives a NameError -/
theorem C181_fails : readPwr exFlt "a,b\n1,2\n".toList = .error .name ∧ readInd exFlt (· / 1000) "a_u8000.ind".toList "a,b\n1,2\n".toList = .error .name := by
  decide +kernel

/-- **C182** for headers whose numbers have two digits or white space behind them: the labels of an induction file are the names of its first line, with an
underscore in front of the unit.  (Missing for the full property: a number of one digit without a space behind it, see `C182_fails`.) -/
theorem C182_partial {F : Type} (flt : Str → Option F) (per1000 : F → F) (filename s : Str) (h : Head) (ls : List Str) (rows : List (List F))
    (hs : HasLines s (h.text :: ls)) (hg : h.Good) (hsp : ∀ c ∈ h.cols, c.Two) (hr : Rows flt ls rows)
    (names : List (Str × Str)) (hn : List.Forall₂ (fun f nu => IndField f nu.1 nu.2) h.fields names) (r : Ind F) (hok : readInd flt per1000 filename s = .ok r) :
    r.cols = names.map (fun nu => under nu.1 ++ "_[".toList ++ under nu.2 ++ "]".toList) ∧ r.rows = rows ∧
      ((names.length = 38 ∧ r.kind = "ind".toList) ∨ (names.length = 14 ∧ r.kind = "fext".toList) ∨ (names.length = 18 ∧ r.kind = "defl".toList)) := by
  obtain ⟨x, h1, h2⟩ := ind_cols s h hg hsp ls hs names hn
  rw [readInd, h1] at hok
  simp only [h2] at hok
  rw [List.length_map] at hok
  cases ht : indType names.length with
  | none => rw [ht] at hok; cases hok
  | some k =>
    rw [ht] at hok
    simp only at hok
    cases hd : data flt s names.length with
    | error e => rw [hd] at hok; cases hok
    | ok m =>
      rw [hd] at hok
      simp only at hok
      split at hok
      · cases hok
      · obtain rfl := Except.ok.inj hok
        refine ⟨List.map_congr_left fun nu _ => by simp, data_rows flt s _ ls hs rows hr _ m hd, ?_⟩
        simp only
        rw [indType] at ht
        by_cases e1 : names.length = 38
        · rw [if_pos e1] at ht; exact .inl ⟨e1, (Option.some.inj ht).symm⟩
        · rw [if_neg e1] at ht
          by_cases e2 : names.length = 14
          · rw [if_pos e2] at ht; exact .inr (.inl ⟨e2, (Option.some.inj ht).symm⟩)
          · rw [if_neg e2] at ht
            by_cases e3 : names.length = 18
            · rw [if_pos e3] at ht; exact .inr (.inr ⟨e3, (Option.some.inj ht).symm⟩)
            · rw [if_neg e3] at ht; cases ht

/-- **C183** for names `…_u<digits>.ind`: the wind speed is that number over thousand.  (Missing for the full property: the other accepted extension `.txt`, see `C183_fails`.) -/
theorem C183_partial {F : Type} (flt : Str → Option F) (per1000 : F → F) (s : Str) (pre w ext : Str) (u : Char) (x : F) (hu : u = 'u' ∨ u = 'U') (hne : w ≠ [])
    (hw : ∀ c ∈ w, c.isDigit = true) (he : lower ext = ".ind".toList) (hx : flt w = some x) (r : Ind F)
    (hok : readInd flt per1000 (pre ++ '_' :: u :: w ++ ext) s = .ok r) : r.wsp = per1000 x := by
  rw [readInd] at hok
  simp only [wind_of pre w ext u hu hne hw he, digits_strip w hne hw, hx] at hok
  split at hok
  · split at hok
    · cases hok
    · split at hok
      · cases hok
      · obtain rfl := Except.ok.inj hok; rfl
  · cases hok

theorem exInd : readInd exFlt (· / 1000) "b_c/case_u8000.IND".toList (exText 12 2) = .ok ⟨"fext".toList,
    ["V_[m/s]".toList, "Pitch_Q_[Nm]".toList] ++ List.replicate 12 "T_[1]".toList, List.replicate 2 (List.replicate 14 7), 8⟩ := by
  have hs : HasLines (exText 12 2) ((exHead 12).text :: List.replicate 2 (exRow 14)) := ⟨by decide +kernel, .inl rfl⟩
  have hn : List.Forall₂ (fun f (nu : Str × Str) => IndField f nu.1 nu.2) (exHead 12).fields (("V".toList, "m/s".toList) :: ("Pitch Q".toList, "Nm".toList) :: List.replicate 12 ("T".toList, "1".toList)) := by
    have hb : ∀ c : Char, ¬ bl c ↔ c ≠ ' ' ∧ c ≠ '_' := fun c => by simp [bl]
    have hT : IndField "T[1".toList "T".toList "1".toList := ⟨.inl (by decide), by decide, by decide, by simp, by simp [bl], by simp⟩
    refine .cons ⟨.inr (by decide), by decide, by decide, by simp, by simp [bl], by simp [bl]⟩
      (.cons ⟨.inr (by decide), by decide, by decide, by simp [bl], by simp [bl], by simp [bl]⟩ ?_)
    show List.Forall₂ _ ((List.replicate 12 _).map _) _
    rw [List.map_replicate]
    exact .cons hT (.cons hT (.cons hT (.cons hT (.cons hT (.cons hT (.cons hT (.cons hT (.cons hT (.cons hT (.cons hT (.cons hT .nil)))))))))))
  obtain ⟨cols, hc⟩ := (C180_partial exFlt _ (exHead 12) _ _ hs (exHead_good 12) (exRows 14 (by decide) 2) (by decide) (by decide +kernel)).2 "fext".toList (.inr (.inl ⟨rfl, rfl⟩))
    (· / 1000) "b_c/case".toList "8000".toList ".IND".toList 'u' 8000 (.inl rfl) (by decide) (by decide) (by decide) (by decide +kernel)
  have h3 := C183_partial exFlt (· / 1000) _ "b_c/case".toList "8000".toList ".IND".toList 'u' 8000 (.inl rfl) (by decide) (by decide) (by decide) (by decide +kernel) _ hc
  have h2 := C182_partial exFlt (· / 1000) _ _ (exHead 12) _ _ hs (exHead_good 12) (by
    intro c hc
    rcases List.mem_cons.1 hc with rfl | hc
    · exact .inr ⟨rfl, by decide⟩
    · rw [List.eq_of_mem_replicate hc]; exact .inr ⟨rfl, by decide⟩) (exRows 14 (by decide) 2) _ hn _ hc
  have e : "b_c/case_u8000.IND".toList = "b_c/case".toList ++ '_' :: 'u' :: "8000".toList ++ ".IND".toList := by decide
  rw [e, hc]
  have h21 := h2.1
  simp only at h21
  rw [h21]
  congr 1

example : readInd exFlt (· / 1000) "b_c/case_u8000.IND".toList (exText 12 2) = .ok ⟨"fext".toList,
    ["V_[m/s]".toList, "Pitch_Q_[Nm]".toList] ++ List.replicate 12 "T_[1]".toList, List.replicate 2 (List.replicate 14 7), 8⟩ := exInd

/-- C182 fails: in `4ALPHA0 [rad] 5` (as in the example file `HAWCStab2_u3000.ind`) the first letter of the name is dropped with the number -/
theorem C182_fails : (readInd exFlt (· / 1000) "a_u8000.ind".toList
    ("# s [m] 1 A [-] 2 AP [-] 3  PHI0 [rad] 4ALPHA0 [rad] 5 F [N] 6 F [N] 7 F [N] 8 F [N] 9 F [N] 10 F [N] 11 F [N] 12 F [N] 13 F [N] 14\n" ++
     "1 2 3 4 5 6 7 8 9 10 11 12 13 14\n1 2 3 4 5 6 7 8 9 10 11 12 13 14\n").toList).toOption.map (fun r => r.cols.take 5) =
    some ["s_[m]".toList, "A_[-]".toList, "AP_[-]".toList, "PHI0_[rad]".toList, "LPHA0_[rad]".toList] := by
  decide +kernel

/-- C183 fails: for a name with the extension `.txt` there is a ValueError -/
theorem C183_fails : readInd exFlt (· / 1000) "a_u8000.txt".toList (exText 12 2) = .error .value ∧
    (readInd exFlt (· / 1000) "a_u8000.ind".toList (exText 12 2)).toOption.map Ind.wsp = some 8 := by
  decide +kernel

/-- **C184**: the columns of a Campbell file for `n` modes: wind speed, frequencies and, if there are twice or three times as many columns as modes, the dampings and
a third quantity; with any other number of columns there is a ValueError, without modes a ZeroDivisionError. -/
theorem C184_cmb (int : Str → Option Int) (h : Str) (t : Str) (ht : (words h).getLast? = some t) (n : Nat) (hn : int t = some (n : Int)) (w : Nat) (hw : 1 ≤ w) :
    (n = 0 → cmbCols int h w = .error .zeroDiv) ∧
    (1 ≤ n → (∀ k, k = 1 ∨ k = 2 ∨ k = 3 → w = 1 + k * n → ∃ cols, cmbCols int h w = .ok cols ∧ cols.length = w ∧ cols[0]? = some "Wind_[m/s]".toList ∧
        ∀ q i, q < k → i < n → cols[1 + q * n + i]? = ("FDR".toList[q]?).map fun c => c :: FastLine.showInt ((i : Int) + 1)) ∧
      (w ≠ 1 + n → w ≠ 1 + 2 * n → w ≠ 1 + 3 * n → cmbCols int h w = .error .value)) := by
  have hnum : ∀ x i, i < n → (numbered x n)[i]? = some (x :: FastLine.showInt ((i : Int) + 1)) := by
    intro x i hi
    simp [numbered, hi]
  constructor
  · rintro rfl
    simp [cmbCols, ht, hn]
  · intro h1
    have hcm : cmbCols int h w = (let nCols : Int := (w : Int) - 1
        let cols := "Wind_[m/s]".toList :: (numbered 'F' n ++ (if nCols = 2 * (n : Int) ∨ nCols = 3 * (n : Int) then numbered 'D' n else []) ++
          (if nCols = 3 * (n : Int) then numbered 'R' n else []))
        if cols.length = w then .ok cols else .error .value) := by
      rw [cmbCols, ht]
      simp only [hn]
      rw [if_neg (by omega)]
    constructor
    · intro k hk hwk
      rw [hcm]
      simp only
      rcases hk with rfl | rfl | rfl
      · rw [if_neg (by omega : ¬ ((w : Int) - 1 = 2 * (n : Int) ∨ (w : Int) - 1 = 3 * (n : Int))), if_neg (by omega : ¬ ((w : Int) - 1 = 3 * (n : Int)))]
        refine ⟨_, by rw [if_pos]; simp [numbered_length]; omega, by simp [numbered_length]; omega, rfl, ?_⟩
        intro q i hq hi
        obtain rfl : q = 0 := by omega
        rw [show 1 + 0 * n + i = i + 1 by omega, List.getElem?_cons_succ]
        simp [hnum _ i hi]
      · rw [if_pos (by omega : (w : Int) - 1 = 2 * (n : Int) ∨ (w : Int) - 1 = 3 * (n : Int)), if_neg (by omega : ¬ ((w : Int) - 1 = 3 * (n : Int)))]
        refine ⟨_, by rw [if_pos]; simp [numbered_length]; omega, by simp [numbered_length]; omega, rfl, ?_⟩
        intro q i hq hi
        obtain rfl | rfl : q = 0 ∨ q = 1 := by omega
        · rw [show 1 + 0 * n + i = i + 1 by omega, List.getElem?_cons_succ, List.append_nil, List.getElem?_append_left (by rw [numbered_length]; omega)]
          simp [hnum _ i hi]
        · rw [show 1 + 1 * n + i = (n + i) + 1 by omega, List.getElem?_cons_succ, List.append_nil, List.getElem?_append_right (by rw [numbered_length]; omega), numbered_length,
            show n + i - n = i by omega]
          simp [hnum _ i hi]
      · rw [if_pos (by omega : (w : Int) - 1 = 2 * (n : Int) ∨ (w : Int) - 1 = 3 * (n : Int)), if_pos (by omega : (w : Int) - 1 = 3 * (n : Int))]
        refine ⟨_, by rw [if_pos]; simp [numbered_length]; omega, by simp [numbered_length]; omega, rfl, ?_⟩
        intro q i hq hi
        obtain rfl | rfl | rfl : q = 0 ∨ q = 1 ∨ q = 2 := by omega
        · rw [show 1 + 0 * n + i = i + 1 by omega, List.getElem?_cons_succ, List.append_assoc, List.getElem?_append_left (by rw [numbered_length]; omega)]
          simp [hnum _ i hi]
        · rw [show 1 + 1 * n + i = (n + i) + 1 by omega, List.getElem?_cons_succ, List.append_assoc, List.getElem?_append_right (by rw [numbered_length]; omega), numbered_length,
            show n + i - n = i by omega, List.getElem?_append_left (by rw [numbered_length]; omega)]
          simp [hnum _ i hi]
        · rw [show 1 + 2 * n + i = (n + n + i) + 1 by omega, List.getElem?_cons_succ, List.getElem?_append_right (by simp [numbered_length])]
          simp only [List.length_append, numbered_length]
          rw [show n + n + i - (n + n) = i by omega]
          simp [hnum _ i hi]
    · intro e1 e2 e3
      rw [hcm]
      simp only
      rw [if_neg (by omega : ¬ ((w : Int) - 1 = 2 * (n : Int) ∨ (w : Int) - 1 = 3 * (n : Int))), if_neg (by omega : ¬ (w : Int) - 1 = 3 * (n : Int)), if_neg]
      simp [numbered_length]
      omega

example : ∃ cols, cmbCols (fun t => some (FastLine.pyInt t)) "# Mode number: 1 2".toList 7 = .ok cols ∧ cols.length = 7 ∧ cols[0]? = some "Wind_[m/s]".toList ∧
    cols[1]? = some "F1".toList ∧ cols[4]? = some "D2".toList ∧ cols[6]? = some "R2".toList := by
  obtain ⟨cols, h1, h2, h3, h4⟩ := ((C184_cmb (fun t => some (FastLine.pyInt t)) "# Mode number: 1 2".toList "2".toList (by decide +kernel) 2 (by decide +kernel) 7 (by decide)).2 (by decide)).1 3 (.inr (.inr rfl)) rfl
  exact ⟨cols, h1, h2, h3, h4 0 0 (by decide) (by decide), h4 1 1 (by decide) (by decide), h4 2 1 (by decide) (by decide)⟩

end Verif.Hs2
