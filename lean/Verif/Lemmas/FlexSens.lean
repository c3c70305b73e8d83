import Verif.Spec.FlexSens
import Verif.Props.Flex
import Verif.Lemmas.TurbSimTS
import Verif.Lemmas.Hawc2Sel
import Verif.Lemmas.Tecplot
/-!
# Lemmas on a FLEX sensor file
-/
namespace Verif.FlexSens
open Verif.Py Verif.TurbSimTS

theorem sensorLine_of {D : Type} (φ : Num D) (l : Str) (x : Sensor D) (h : Says φ l x) : sensorLine φ l = .ok x := by
  obtain ⟨i, g, o, a, b, descr, hw, hi, hg, ho, hd⟩ := h
  unfold sensorLine
  simp only [words_strip, hw, List.getElem?_cons_zero, List.getElem?_cons_succ, hi, hg, ho, List.drop_succ_cons, List.drop_zero, ← hd]

theorem readSensors_of {D : Type} (φ : Num D) (s : Str) (ss : List (Sensor D)) (h : SensorFile φ s ss) : readSensors φ s = .ok ss := by
  obtain ⟨l1, l2, ls, hs, hl⟩ := h
  rw [readSensors, readlines_of hs]
  exact Hawc2Sel.mapM_ok _ _ _ (hl.imp fun _ _ hx => sensorLine_of φ _ _ hx)

theorem replaceChar_filter (c : Char) (s : Str) : replaceChar c [] s = s.filter fun x => x ≠ c := by
  induction s with
  | nil => rfl
  | cons x s ih =>
    rw [Tecplot.replaceChar_cons, ih]
    by_cases h : x = c <;> simp [h]

theorem cleanUnit_bare (u : Str) : cleanUnit u = bare u := by
  simp only [cleanUnit, replaceChar_filter, List.filter_filter, bare]
  refine List.filter_congr ?_
  intro x _
  simp only [List.mem_cons, List.not_mem_nil, or_false, not_or, decide_not, Bool.decide_and, Bool.decide_or, Bool.not_or, Bool.and_assoc]
  cases decide (x = '(') <;> cases decide (x = ')') <;> cases decide (x = '[') <;> cases decide (x = ']') <;> rfl

theorem labels {F D : Type} (o : Out F D) : (toDataFrame o).1 = "Time_[s]".toList :: o.sensors.map fun x => x.name ++ "_[".toList ++ bare x.unit ++ "]".toList := by
  rw [toDataFrame, List.zipWith_cons_cons]
  refine congrArg₂ List.cons (by decide) ?_
  simp only [List.zipWith_map, List.zipWith_self, cleanUnit_bare]

theorem readRes_int (S : Flex.Flt) (bs : Bytes) (r : Flex.Res S.F) (h : Flex.readRes S bs = .ok r) :
    ∃ n : Nat, Flex.int32 bs 76 = n ∧ Flex.intAt bs 76 = .ok (n : Int) ∧ ∀ row ∈ r.rows, row.length = n := by
  obtain ⟨n, _, h2, _, _, _, h6, _⟩ := Flex.C41_read S bs r h
  refine ⟨n, h2, ?_, h6⟩
  unfold Flex.readRes at h
  cases hi : Flex.intAt bs 76 with
  | error e => rw [hi] at h; cases h
  | ok z =>
    have : z = Flex.int32 bs 76 := by
      unfold Flex.intAt at hi
      split at hi
      · exact (Except.ok.inj hi).symm
      · cases hi
    rw [this, h2]

theorem sensorLine_error {D : Type} (φ : Num D) (l : Str)
    (h : (words l).length < 7 ∨ (∃ w, (words l)[0]? = some w ∧ φ.int w = none) ∨ ∃ k, (k = 1 ∨ k = 2) ∧ ∃ w, (words l)[k]? = some w ∧ φ.flt w = none) :
    ∃ e, sensorLine φ l = .error e ∧ (e = .index ∨ e = .value) := by
  unfold sensorLine
  simp only [words_strip]
  generalize words l = w at h
  cases h0 : w[0]? with
  | none => exact ⟨_, rfl, .inl rfl⟩
  | some w0 =>
    cases i0 : φ.int w0 with
    | none => simp only [i0]; exact ⟨_, rfl, .inr rfl⟩
    | some i =>
      cases h1 : w[1]? with
      | none => simp only [i0]; exact ⟨_, rfl, .inl rfl⟩
      | some w1 =>
        cases i1 : φ.flt w1 with
        | none => simp only [i0, i1]; exact ⟨_, rfl, .inr rfl⟩
        | some g =>
          cases h2 : w[2]? with
          | none => simp only [i0, i1]; exact ⟨_, rfl, .inl rfl⟩
          | some w2 =>
            cases i2 : φ.flt w2 with
            | none => simp only [i0, i1, i2]; exact ⟨_, rfl, .inr rfl⟩
            | some o =>
              cases h5 : w[5]? with
              | none => simp only [i0, i1, i2]; exact ⟨_, rfl, .inl rfl⟩
              | some u =>
                cases h6 : w[6]? with
                | none => simp only [i0, i1, i2]; exact ⟨_, rfl, .inl rfl⟩
                | some n =>
                  exfalso
                  rcases h with h | ⟨x, hx, hn⟩ | ⟨k, rfl | rfl, x, hx, hn⟩
                  · rw [List.getElem?_eq_none (by omega)] at h6; cases h6
                  · rw [h0] at hx; obtain rfl := Option.some.inj hx; rw [i0] at hn; cases hn
                  · rw [h1] at hx; obtain rfl := Option.some.inj hx; rw [i1] at hn; cases hn
                  · rw [h2] at hx; obtain rfl := Option.some.inj hx; rw [i2] at hn; cases hn

theorem mapM_kind {α β : Type} (f : α → Except Err β) (l : List α) (P : Err → Prop) (hP : ∀ a ∈ l, ∀ e, f a = .error e → P e) (h : ∃ a ∈ l, ∃ e, f a = .error e) :
    ∃ e, l.mapM f = .error e ∧ P e := by
  induction l with
  | nil => obtain ⟨a, ha, _⟩ := h; cases ha
  | cons a l ih =>
    rw [List.mapM_cons]
    cases hf : f a with
    | error e => exact ⟨e, rfl, hP a (by simp) e hf⟩
    | ok b =>
      obtain ⟨x, hx, e, he⟩ := h
      rcases List.mem_cons.1 hx with rfl | hx
      · rw [hf] at he; cases he
      · obtain ⟨e', h1, h2⟩ := ih (fun a ha => hP a (by simp [ha])) ⟨x, hx, e, he⟩
        exact ⟨e', by rw [h1]; rfl, h2⟩

theorem sensorLine_kind {D : Type} (φ : Num D) (l : Str) (e : Err) (h : sensorLine φ l = .error e) : e = .index ∨ e = .value := by
  unfold sensorLine at h
  simp only at h
  repeat' split at h
  all_goals first | (obtain rfl := Except.error.inj h; simp) | cases h

/-- numbers for the examples -/
def exNum : Num Str := ⟨fun w => if w.all Char.isDigit then some (Nat.ofDigitChars 10 w 0 : Nat) else none, fun w => if w.all (fun c => c.isDigit || c = '.') then some w else none,
  "1".toList, "0".toList⟩

/-- a sensor file -/
def exText : Str :=
  HawcAe.unlines ["Sensor list".toList, "No forst offset korr. Volt Unit Name Description".toList, "1 1.0 0.5 0 0 [m/s] WindX Wind speed".toList, "2 2 0 0 0 (kNm) Mx".toList]

/-- its sensors -/
def exSensors : List (Sensor Str) :=
  [⟨1, "1.0".toList, "0.5".toList, "[m/s]".toList, "WindX".toList, "Wind speed".toList⟩, ⟨2, "2".toList, "0".toList, "(kNm)".toList, "Mx".toList, []⟩]

theorem exFile : SensorFile exNum exText exSensors :=
  ⟨"Sensor list".toList, "No forst offset korr. Volt Unit Name Description".toList,
    ["1 1.0 0.5 0 0 [m/s] WindX Wind speed".toList, "2 2 0 0 0 (kNm) Mx".toList], ⟨by decide +kernel, .inl rfl⟩,
    .cons ⟨"1".toList, "1.0".toList, "0.5".toList, "0".toList, "0".toList, ["Wind".toList, "speed".toList], by decide +kernel, by decide +kernel, by decide +kernel,
      by decide +kernel, by decide +kernel⟩
    (.cons ⟨"2".toList, "2".toList, "0".toList, "0".toList, "0".toList, [], by decide +kernel, by decide +kernel, by decide +kernel, by decide +kernel, by decide +kernel⟩ .nil)⟩

/-- times for the examples -/
def exRange (a b : Int) (n : Nat) : List Int := (List.range n).map fun i : Nat => a + i * b

theorem exRes : ∃ r, Flex.readRes Flex.toy (Flex.fileEx 0 [1, 2, 3, 4]) = .ok r ∧ r.tmin = 5 ∧ r.dt = 7 ∧ r.rows = [[2, 6], [6, 12]] := by
  have h : (Flex.readRes Flex.toy (Flex.fileEx 0 [1, 2, 3, 4])).map (fun r => (r.tmin, r.dt, r.rows)) = .ok (5, 7, [[2, 6], [6, 12]]) := by decide +kernel
  cases e : Flex.readRes Flex.toy (Flex.fileEx 0 [1, 2, 3, 4]) with
  | error x => rw [e] at h; cases h
  | ok r =>
    rw [e] at h
    have := Except.ok.inj h
    exact ⟨r, rfl, congrArg Prod.fst this, congrArg (fun p => p.2.1) this, congrArg (fun p => p.2.2) this⟩

end Verif.FlexSens
