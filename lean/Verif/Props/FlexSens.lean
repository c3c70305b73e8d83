import Verif.Lemmas.FlexSens
import Verif.Props.Flex
import Verif.Lemmas.TurbSimTS
import Verif.Lemmas.Hawc2Sel
import Verif.Lemmas.Tecplot
/-!
# FLEX output files with sensor files

Properties C192 to C194.
-/
namespace Verif.FlexSens
open Verif.Py Verif.TurbSimTS

/-- **C192**: the table of a result file with a sensor file has the time and a column for every line of the sensor file, with the name and the unit of the
line, the unit without brackets; its rows are the times and the samples of the result file -/
theorem C192 {D : Type} (S : Flex.Flt) (φ : Num D) (arange : S.F → S.F → Nat → List S.F) (bs : Bytes) (r : Flex.Res S.F) (hr : Flex.readRes S bs = .ok r)
    (ht : (arange r.tmin r.dt r.rows.length).length = r.rows.length) (s : Str) (ss : List (Sensor D)) (hs : SensorFile φ s ss) (hn : Flex.int32 bs 76 = ss.length) :
    ∃ o, readOut S φ arange bs (some s) = .ok o ∧ o.sensors = ss ∧
      (toDataFrame o).1 = "Time_[s]".toList :: ss.map (fun x => x.name ++ "_[".toList ++ bare x.unit ++ "]".toList) ∧
      (toDataFrame o).2.length = r.rows.length ∧
      (∀ (k : Nat) t row, (arange r.tmin r.dt r.rows.length)[k]? = some t → r.rows[k]? = some row → (toDataFrame o).2[k]? = some (t :: row)) ∧
      ∀ row ∈ (toDataFrame o).2, row.length = (toDataFrame o).1.length := by
  obtain ⟨n, h1, h2, h3⟩ := readRes_int S bs r hr
  have hnn : n = ss.length := by rw [h1] at hn; exact_mod_cast hn
  refine ⟨⟨arange r.tmin r.dt r.rows.length, r.rows, ss⟩, ?_, rfl, labels _, ?_, ?_, ?_⟩
  · unfold readOut
    rw [hr, h2]
    simp only [if_pos ht, readSensors_of φ s ss hs, Int.toNat_natCast, if_pos hnn.symm]
  · simp [toDataFrame, ht]
  · intro k t row e1 e2
    simp [toDataFrame, List.getElem?_zipWith, e1, e2]
  · intro row hrow
    rw [labels]
    simp only [toDataFrame] at hrow
    obtain ⟨k, hk⟩ := List.mem_iff_getElem?.1 hrow
    rw [List.getElem?_zipWith] at hk
    cases e1 : (arange r.tmin r.dt r.rows.length)[k]? with
    | none => simp [e1] at hk
    | some t =>
      cases e2 : r.rows[k]? with
      | none => simp [e1, e2] at hk
      | some q =>
        simp only [e1, e2, Option.some.injEq] at hk
        rw [← hk]
        have := h3 q (List.mem_of_getElem? e2)
        simp [this, hnn]

example : ∃ o, readOut Flex.toy exNum exRange (Flex.fileEx 0 [1, 2, 3, 4]) (some exText) = .ok o ∧
    (toDataFrame o).1 = ["Time_[s]".toList, "WindX_[m/s]".toList, "Mx_[kNm]".toList] ∧ (toDataFrame o).2[1]? = some [12, 6, 12] := by
  obtain ⟨r, h0, e1, e2, e3⟩ := exRes
  obtain ⟨o, h1, _, h2, _, h3, _⟩ := C192 Flex.toy exNum exRange _ r h0 (by rw [e1, e2, e3]; rfl) exText exSensors exFile (by decide +kernel)
  exact ⟨o, h1, by rw [h2]; decide +kernel, h3 1 12 [6, 12] (by rw [e1, e2, e3]; rfl) (by rw [e3]; rfl)⟩

/-- **C193**: without a sensor file the columns are named `S0001`, `S0002`, …, with the unit `NA` -/
theorem C193 {D : Type} (S : Flex.Flt) (φ : Num D) (arange : S.F → S.F → Nat → List S.F) (bs : Bytes) (r : Flex.Res S.F) (hr : Flex.readRes S bs = .ok r)
    (ht : (arange r.tmin r.dt r.rows.length).length = r.rows.length) :
    ∃ (o : Out S.F D) (n : Nat), readOut S φ arange bs none = .ok o ∧ Flex.int32 bs 76 = n ∧ (toDataFrame o).1.length = n + 1 ∧
      (toDataFrame o).1[0]? = some "Time_[s]".toList ∧
      (∀ i < n, ∃ z, (toDataFrame o).1[i + 1]? = some ('S' :: (List.replicate z '0' ++ Nat.toDigits 10 (i + 1) ++ "_[NA]".toList)) ∧
        z = 4 - (Nat.toDigits 10 (i + 1)).length) ∧
      ∀ (k : Nat) t row, (arange r.tmin r.dt r.rows.length)[k]? = some t → r.rows[k]? = some row → (toDataFrame o).2[k]? = some (t :: row) := by
  obtain ⟨n, h1, h2, h3⟩ := readRes_int S bs r hr
  refine ⟨⟨arange r.tmin r.dt r.rows.length, r.rows, fakeSensors φ n⟩, n, ?_, h1, ?_, ?_, ?_, ?_⟩
  · unfold readOut
    rw [hr, h2]
    simp only [if_pos ht, Int.toNat_natCast]
  · simp [labels, fakeSensors]
  · rw [labels]; rfl
  · intro i hi
    refine ⟨_, ?_, rfl⟩
    rw [labels, List.getElem?_cons_succ, fakeSensors, List.map_map, List.getElem?_map, List.getElem?_range hi]
    have e : FastLine.showInt ((i : Int) + 1) = Nat.toDigits 10 (i + 1) := rfl
    have e2 : bare "(NA)".toList = "NA".toList := by decide
    simp only [Option.map_some, Function.comp, fakeName, e, e2]
    simp
  · intro k t row e1 e2
    simp [toDataFrame, List.getElem?_zipWith, e1, e2]

example : ∃ (o : Out Int Str), readOut Flex.toy exNum exRange (Flex.fileEx 0 [1, 2, 3, 4]) none = .ok o ∧ (toDataFrame o).1[2]? = some "S0002_[NA]".toList := by
  obtain ⟨r, h0, e1, e2, e3⟩ := exRes
  obtain ⟨o, n, h1, hn, _, _, h2, _⟩ := C193 Flex.toy exNum exRange _ r h0 (by rw [e1, e2, e3]; rfl)
  have hn2 : n = 2 := by
    have : Flex.int32 (Flex.fileEx 0 [1, 2, 3, 4]) 76 = 2 := by decide +kernel
    omega
  obtain ⟨z, hz, e⟩ := h2 1 (by omega)
  refine ⟨o, h1, ?_⟩
  rw [hz, e]
  decide +kernel

/-- **C194**: a sensor file with another number of sensors than the result file is refused -/
theorem C194_count {D : Type} (S : Flex.Flt) (φ : Num D) (arange : S.F → S.F → Nat → List S.F) (bs : Bytes) (r : Flex.Res S.F) (hr : Flex.readRes S bs = .ok r)
    (ht : (arange r.tmin r.dt r.rows.length).length = r.rows.length) (s : Str) (ss : List (Sensor D)) (hs : SensorFile φ s ss) (hn : Flex.int32 bs 76 ≠ ss.length) :
    readOut S φ arange bs (some s) = .error .broken := by
  obtain ⟨n, h1, h2, h3⟩ := readRes_int S bs r hr
  unfold readOut
  rw [hr, h2]
  have : ss.length ≠ n := by rintro rfl; exact hn h1
  simp only [if_pos ht, readSensors_of φ s ss hs, Int.toNat_natCast, if_neg this]

example : ∃ s, readOut Flex.toy exNum exRange (Flex.fileEx 0 [1, 2, 3, 4]) (some s) = .error .broken := by
  obtain ⟨r, h0, e1, e2, e3⟩ := exRes
  exact ⟨"a\nb\n".toList, C194_count Flex.toy exNum exRange _ r h0 (by rw [e1, e2, e3]; rfl) _ []
    ⟨"a".toList, "b".toList, [], ⟨by decide +kernel, .inl rfl⟩, .nil⟩ (by decide +kernel)⟩

/-- **C194**: a sensor file with a line (behind the first two) of less than seven words, as an empty line, or with a word that is no number is refused -/
theorem C194_line {D : Type} (S : Flex.Flt) (φ : Num D) (arange : S.F → S.F → Nat → List S.F) (bs : Bytes) (r : Flex.Res S.F) (hr : Flex.readRes S bs = .ok r)
    (ht : (arange r.tmin r.dt r.rows.length).length = r.rows.length) (s l1 l2 : Str) (ls : List Str) (hs : HasLines s (l1 :: l2 :: ls)) (l : Str) (hl : l ∈ ls)
    (hb : (words l).length < 7 ∨ (∃ w, (words l)[0]? = some w ∧ φ.int w = none) ∨ ∃ k, (k = 1 ∨ k = 2) ∧ ∃ w, (words l)[k]? = some w ∧ φ.flt w = none) :
    ∃ e, readOut S φ arange bs (some s) = .error e ∧ (e = .index ∨ e = .value) := by
  obtain ⟨n, h1, h2, h3⟩ := readRes_int S bs r hr
  obtain ⟨e0, he, _⟩ := sensorLine_error φ l hb
  obtain ⟨e, he, hk⟩ := mapM_kind (sensorLine φ) ls (fun e => e = .index ∨ e = .value) (fun a _ e => sensorLine_kind φ a e) ⟨l, hl, e0, he⟩
  refine ⟨e, ?_, hk⟩
  unfold readOut
  rw [hr, h2]
  have : readSensors φ s = .error e := by rw [readSensors, readlines_of hs]; exact he
  simp only [if_pos ht, this]

example : ∃ e, readOut Flex.toy exNum exRange (Flex.fileEx 0 [1, 2, 3, 4]) (some "a\nb\n1 1 1 1 1 m x\n\n".toList) = .error e ∧ (e = .index ∨ e = .value) := by
  obtain ⟨r, h0, e1, e2, e3⟩ := exRes
  exact C194_line Flex.toy exNum exRange _ r h0 (by rw [e1, e2, e3]; rfl) _ "a".toList "b".toList ["1 1 1 1 1 m x".toList, []] ⟨by decide +kernel, .inl rfl⟩ []
    (by simp) (.inl (by decide))

end Verif.FlexSens
