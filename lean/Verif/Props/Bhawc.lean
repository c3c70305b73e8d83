import Verif.Lemmas.Bhawc
import Verif.Props.Hawc2Sel
import Verif.Lemmas.HawcAe
import Verif.Py.Fmt
import Verif.Lemmas.FastBin
import Mathlib.Data.List.Forall2
import Mathlib.Tactic
/-! # BHAWC result files -/
namespace Verif.Hawc2Sel
open Verif.Py
open Verif.FastLine (showInt)

/-- **C139** A BHAWC `.sel` file gives the number of scans, the times and the description, the name and the unit of
each channel, with columns separated by tabs or by more spaces than inside the texts. -/
theorem C139 [Field F] [DecidableEq F] (N : Num F) (s : BhawcText F) (h : s.Ok N) :
    readSel N s.text = .ok ⟨s.nrSc, s.chans.length, s.time, s.times, s.chans.map Channel.name, s.chans.map Channel.unit, s.chans.map Channel.descr, .bhawc, []⟩ := by
  obtain ⟨l0, h0, hb⟩ := h.first
  obtain ⟨i, l, a, b, c, r, hi, hl, hw, ha, hbn, hc⟩ := h.count
  obtain ⟨j, hj, hch⟩ := h.channels
  unfold readSel BhawcText.text
  rw [keepLines_unlines _ h.line]
  have e0 : nth (s.lines.map (· ++ ['\n'])) 0 = .ok (l0 ++ ['\n']) := by
    unfold nth
    rw [List.getElem?_map, h0]
    rfl
  have e1 : nth (s.lines.map (· ++ ['\n'])) (i + 1) = .ok (l ++ ['\n']) := by
    unfold nth
    rw [List.getElem?_map, hl]
    rfl
  have hm : mentions "bhawc".toList (l0 ++ ['\n']) = true := (mentions_iff _ _).2 ((infix_nl _ _ (by decide)).2 hb)
  obtain ⟨x, y, hxy, hx, hy⟩ := range5 i 9 hi.1 hi.2.1
  obtain ⟨x', y', hxy', hx', hy'⟩ := range5 j 12 hj.1 hj.2.1
  have f1 := findLine_ok s.lines "scans".toList (by decide) 9 i hi [5, 6, 7, 8, 9] x y hxy hx hy
  have f2 := findLine_ok s.lines "channel".toList (by decide) 12 j hj [5, 6, 7, 8, 9, 10, 11, 12] x' y' hxy' hx' hy'
  have hc' := counts_ok N a b c r s.nrSc s.chans.length s.time ha hbn hc h.time
  have hcs : bhawcChannels (((s.lines.map (· ++ ['\n'])).drop (j + 1)).take ((s.chans.length : Int) + 1).toNat) = .ok (s.chans.map (fun c => (c.name, c.unit, c.descr))) := by
    rw [← List.map_drop, ← List.map_take, show ((s.chans.length : Int) + 1).toNat = s.chans.length + 1 by omega]
    exact bhawcChannels_ok _ _ hch
  simp only [bind, Except.bind, e0, hm, if_true, readBhawc, f1, e1, words_nl, hw, hc', f2, hcs]
  simp only [List.map_map]
  rfl

/-- a header with a channel in columns with tabs, and one in columns with spaces -/
def exBhawc : BhawcText ℚ where
  lines := ["BHawC channel reference file".toList, [], [], [], [], [], "Scans  Channels  Time".toList, "2 2 10".toList, [], "Channel Description Label Unit".toList, [],
    "  1\tTime of scan\t\tTime\t[s]".toList, "  2   Wind speed  at hub     Vhub   x  [m/s]  ".toList]
  nrSc := 2
  time := 10
  chans := [⟨"Time".toList, "[s]".toList, "Time of scan".toList⟩, ⟨"Vhub   x".toList, "[m/s]".toList, "Wind speed  at hub".toList⟩]

theorem exBhawc_ok : exBhawc.Ok toyNum := by
  refine ⟨by decide, ⟨"BHawC channel reference file".toList, rfl, by decide +kernel⟩, ⟨6, "2 2 10".toList, "2".toList, "2".toList, "10".toList, [], ⟨by omega, by omega, by decide, ⟨_, rfl, by decide +kernel⟩, ?_⟩, rfl, by decide, by decide +kernel, by decide +kernel, by decide +kernel⟩,
    by decide, ⟨9, ⟨by omega, by omega, by decide, ⟨"Channel Description Label Unit".toList, rfl, by decide +kernel⟩, ?_⟩, ?_⟩⟩
  · intro j l h1 h2 hl
    have : j = 7 ∨ j = 8 ∨ j = 9 := by omega
    rcases this with rfl | rfl | rfl <;> (simp only [exBhawc] at hl; cases hl; decide +kernel)
  · intro j l h1 h2 hl
    have : j = 10 ∨ j = 11 ∨ j = 12 := by omega
    rcases this with rfl | rfl | rfl <;> (simp only [exBhawc] at hl; cases hl; decide +kernel)
  · show List.Forall₂ _ ["  1\tTime of scan\t\tTime\t[s]".toList, "  2   Wind speed  at hub     Vhub   x  [m/s]  ".toList] _
    refine .cons (.inl ⟨[], "\t\t".toList, "\t".toList, ⟨⟨"  ".toList, [], "1".toList, '\t', by decide +kernel, ⟨by decide, by decide⟩, rfl, by decide⟩, ⟨by decide, by decide +kernel⟩, ⟨by decide, by decide +kernel⟩,
      ⟨⟨by decide, by decide⟩, by decide +kernel⟩, by decide⟩, by decide, by decide, by decide +kernel⟩) (.cons (.inr ⟨2, 5, 2, ⟨⟨"  ".toList, "  ".toList, "2".toList, ' ', by decide +kernel, ⟨by decide, by decide⟩, rfl, by decide⟩, ⟨by decide, by decide +kernel⟩, ⟨by decide, by decide +kernel⟩,
      ⟨⟨by decide, by decide⟩, by decide +kernel⟩, by decide⟩, by decide +kernel, 4, by omega, by omega, by omega, by decide +kernel, by decide +kernel⟩) .nil)

example : (readSel toyNum exBhawc.text).map (fun h => (h.names, h.units, h.descr)) =
    .ok (["Time".toList, "Vhub   x".toList], ["[s]".toList, "[m/s]".toList], ["Time of scan".toList, "Wind speed  at hub".toList]) := by
  rw [C139 toyNum exBhawc exBhawc_ok]
  rfl

/-- **C140** A BHAWC result with three channels or more that is saved and read gives the numbers as printed, the first
26 characters of the names and descriptions, and the units in brackets, if these texts are not blank, have no blanks at
their ends, no tab and no bracket, the units no blank, and the word "channel" is in none of the first three channels. -/
theorem C140 [Field F] [DecidableEq F] (N : Num F) (base : Str) (o : Obj F) (m : Nat) (h : CanSave o m) (rd : F → F) (time time' : F)
    (hp : Prints N o rd time time') (ht : time' ≠ 0) (hb : o.bhawc = true) (hs : 's' ∉ lower (N.f3 time)) (hm : 3 ≤ m)
    (hplain : ∀ i < m, Plain (cutChannel (o.names.getD i []) (o.units.getD i []) (o.descr.getD i [])))
    (hch : ∀ i < 3, ¬ Mentions "channel".toList (cutChannel (o.names.getD i []) (o.units.getD i []) (o.descr.getD i []))) (bytes : Bytes) :
    ∃ sel, selText N base o = .ok sel ∧ read N sel (datText N o.data) bytes =
      .ok ⟨o.data.map (·.map rd), o.names.map (·.take 26), o.units.map (fun u => '[' :: (noBrackets u ++ [']'])), o.descr.map (·.take 26), true⟩ := by
  refine ⟨_, selText_bhawc N base o m h hb time time' hp.last, ?_⟩
  have hr := C139 N _ (writtenB_ok N o m h rd time time' hp ht hs hm hplain hch)
  have hsc : (writtenB N o m time time').chans.length = m := by simp [writtenB]
  have := (C136 N _ (datText N o.data) bytes _ o.data.length m hr (by simp) rfl (by simp only [hsc]) h.positive _ (datText_ok N o m h rd time time' hp)).1 (by simp)
  rw [this]
  simp only [writtenB, List.map_map, Function.comp_def, cutChannel]
  rw [range_getD o.names m h.names [] (·.take 26), range_getD o.units m h.units [] (fun u => '[' :: (noBrackets u ++ [']'])),
    range_getD o.descr m h.descr [] (·.take 26)]
  rfl

/-- three channels in two scans -/
def exObjB (name descr : Str) : Obj ℚ where
  data := [[1/2, 7, 6], [2, 8, 5]]
  names := ["Time".toList, name, "Omega".toList]
  units := ["s".toList, "m/s".toList, "rad/s".toList]
  descr := ["Time".toList, descr, "Speed of the rotor".toList]
  bhawc := true

example : ∃ sel, selText decNum "a.dat".toList (exObjB "Vhub".toList "Wind speed".toList) = .ok sel ∧
    read decNum sel (datText decNum (exObjB "Vhub".toList "Wind speed".toList).data) [] =
      .ok { exObjB "Vhub".toList "Wind speed".toList with units := ["[s]".toList, "[m/s]".toList, "[rad/s]".toList] } := by
  refine C140 decNum _ _ 3 ⟨by decide +kernel, by decide +kernel, rfl, rfl, rfl, by decide, by decide +kernel, by decide +kernel⟩ id 2 2
    ⟨?_, ?_, ⟨[8, 5], rfl⟩, ⟨?_, ?_⟩, by decide +kernel, by decide +kernel⟩ (by decide) rfl (by decide +kernel) (by omega) ?_ ?_ []
  · intro n
    simp [decNum, FastLine.strIsInt_showInt, FastLine.pyInt_showInt]
  · intro r hr x hx
    have : ∀ r ∈ (exObjB "Vhub".toList "Wind speed".toList).data, ∀ x ∈ r, words (decNum.e8 x) = [(decNum.e8 x).tail] ∧ decNum.flt (decNum.e8 x).tail = some x ∧
        '\n' ∉ decNum.e8 x ∧ '#' ∉ decNum.e8 x := by decide +kernel
    exact ⟨_, this r hr x hx⟩
  · decide +kernel
  · decide +kernel
  · intro i hi
    have : i = 0 ∨ i = 1 ∨ i = 2 := by omega
    rcases this with rfl | rfl | rfl <;>
      exact ⟨⟨⟨by decide +kernel, by decide +kernel⟩, by decide +kernel, by decide +kernel⟩, ⟨⟨by decide +kernel, by decide +kernel⟩, by decide +kernel, by decide +kernel⟩, ⟨by decide +kernel, by decide +kernel⟩⟩
  · intro i hi
    have : i = 0 ∨ i = 1 ∨ i = 2 := by omega
    unfold Mentions
    rcases this with rfl | rfl | rfl <;> decide +kernel

/-- **C141** is violated: a BHAWC result with fewer than three channels that is saved by the code cannot be read by
it, as the lines up to the thirteenth are looked at. -/
theorem C141_few [Field F] [DecidableEq F] (N : Num F) (base : Str) (o : Obj F) (m : Nat) (h : CanSave o m) (hm : m < 3) (hb : o.bhawc = true)
    (hnl : ∀ x, '\n' ∉ N.f3 x) (text : Str) (bytes : Bytes) : ∃ sel, selText N base o = .ok sel ∧ read N sel text bytes = .error .wrongFormat := by
  obtain ⟨time, rest, hlast⟩ : ∃ time rest, o.data.getLast? = some (time :: rest) := by
    rcases List.eq_nil_or_concat o.data with h0 | ⟨l, r, hr⟩
    · exact absurd h0 h.some_rows
    · have := h.rows r (by rw [hr]; simp)
      cases r with
      | nil =>
        have := h.positive
        simp_all
      | cons t rest => exact ⟨t, rest, by rw [hr]; simp⟩
  refine ⟨_, selText_bhawc N base o m h hb time time ⟨rest, hlast⟩, ?_⟩
  have hlen : (writtenB N o m time time).lines.length < 13 := by
    simp only [writtenB, List.length_append, List.length_map, chanList_eq o m h.names h.units h.descr, List.length_range]
    simp
    omega
  have hlines := h.line
  have hk := keepLines_unlines (writtenB N o m time time).lines (by
    intro l hl
    simp only [writtenB, List.mem_append, List.mem_cons, List.not_mem_nil, or_false] at hl
    rcases hl with (hl | hl | hl | hl | hl | hl | hl | hl | hl | hl) | hl
    · rw [hl]; decide +kernel
    · rw [hl]; decide +kernel
    · rw [hl]; decide +kernel
    · rw [hl]; decide +kernel
    · rw [hl]; decide +kernel
    · rw [hl]; decide +kernel
    · rw [hl]; decide +kernel
    · rw [hl]
      simp only [List.mem_append, List.mem_cons, not_or]
      exact ⟨not_mem_padTo _ _ (HawcAe.IsWord.nl (HawcAe.isWord_showInt _)), by decide, not_mem_padTo _ _ (HawcAe.IsWord.nl (HawcAe.isWord_showInt _)), by decide,
        not_mem_padTo _ _ (hnl time)⟩
    · rw [hl]; decide
    · rw [hl]; decide +kernel
    · rw [chanList_eq o m h.names h.units h.descr, List.map_map] at hl
      obtain ⟨i, hi, rfl⟩ := List.mem_map.1 hl
      have hi := List.mem_range.1 hi
      refine nl_bhawcText _ _ _ _ (hlines _ ?_) (hlines _ ?_) (hlines _ ?_)
      · exact List.mem_append_left _ (getD_mem _ _ _ (by rw [h.names]; exact hi))
      · exact List.mem_append_right _ (List.mem_append_right _ (getD_mem _ _ _ (by rw [h.descr]; exact hi)))
      · exact List.mem_append_right _ (List.mem_append_left _ (getD_mem _ _ _ (by rw [h.units]; exact hi))))
  obtain ⟨e, he⟩ := readBhawc_short N ((writtenB N o m time time).lines.map (· ++ ['\n'])) (by rw [List.length_map]; exact hlen)
  have : readSel N (writtenB N o m time time).text = .error e := by
    unfold readSel BhawcText.text
    rw [hk]
    have e0 : nth ((writtenB N o m time time).lines.map (· ++ ['\n'])) 0 = .ok ("BHawC channel reference file (sel):".toList ++ ['\n']) := rfl
    have hm : mentions "bhawc".toList ("BHawC channel reference file (sel):".toList ++ ['\n']) = true := by decide +kernel
    simp only [bind, Except.bind, e0, hm, if_true, he]
  unfold read load
  rw [this]
  rfl

/-- **C141** One with two channels. -/
theorem C141_fails : ∃ sel, selText decNum "a.dat".toList { exObj "Vhub".toList 2 with bhawc := true } = .ok sel ∧
    read decNum sel (datText decNum (exObj [] 2).data) [] = .error .wrongFormat :=
  ⟨_, rfl, by decide +kernel⟩

/-- **C141** With the word "channel" in a text of the first channels, these channels are lost: the names no longer
fit the columns. -/
theorem C141_word : ∃ sel, selText decNum "a.dat".toList (exObjB "Vhub".toList "Channel height".toList) = .ok sel ∧
    (read decNum sel (datText decNum (exObjB [] []).data) []).map (fun o => (o.names, o.data)) =
      .ok (["Omega".toList], [[1/2, 7, 6], [2, 8, 5]]) :=
  ⟨_, rfl, by decide +kernel⟩

/-- **C141** With the unit in the description as well the file cannot be read. -/
theorem C141_unit : ∃ sel, selText decNum "a.dat".toList (exObjB "Vhub".toList "Wind [m/s]".toList) = .ok sel ∧
    read decNum sel (datText decNum (exObjB [] []).data) [] = .error .wrongFormat :=
  ⟨_, rfl, by decide +kernel⟩

end Verif.Hawc2Sel
