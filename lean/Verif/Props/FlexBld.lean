import Verif.Lemmas.FlexBld
import Verif.Lemmas.Str
import Verif.Py.Dec
import Mathlib.Data.List.Forall2
import Mathlib.Tactic
/-!
# FLEX blade files — C103, C104, C105

`/repo/weio/flex_blade_file.py`.
-/
namespace Verif.FlexBld
open Verif.Py
open Verif.Rosco (fitRow)

/-- **C103** From a FLEX blade file of any of the four versions exactly the numbers written are read:
prebend, dampings, name of the profile file, and the table, where each section has its structural and
aerodynamic numbers under the names of the columns of the version — without the position repeated
in the aerodynamic rows — and nothing under the other names. -/
theorem C103 {F : Type} (φ : Num F) (t : Text) (c : Content F) (h : t.Ok φ c) (more : List Str) :
    read φ (t.lines ++ more) = .ok ⟨c.version, c.betaC, c.flap, c.edge, c.tors, strip t.profile,
      ["r_[m]", "EIFlap_[Nm2]", "EIEdge_[Nm2]", "GKt_[Nm2]", "Mass_[kg/m]", "Jxx_[kg.m]", "PreBendFlap_[m]", "PreBendEdge_[m]",
        "Str.Twist_[deg]", "PhiOut_[deg]", "Ycog_[m]", "Yshc_[m]", "CalcOutput_[0/1]", "Chord_[m]", "AeroTwist_[deg]",
        "RelThickness_[%]", "AeroCenter_[m]", "AeroTorsion_[0/1]", "ProfileSet_[#]"].map (fun name =>
          (name, List.zipWith (fun s a => ((structNames c.version).zip s ++ ((aeroNames c.version).zip a).tail).lookup name) c.struct c.aero))⟩ := by
  unfold Text.lines
  simp only [List.cons_append, List.append_assoc]
  rw [read_body φ t c h]
  unfold body
  rw [readRows_ok φ _ _ _ _ h.struct h.widthS]
  simp only
  rw [damping_ok φ c _ _ _ h.beta h.damp]
  simp only
  rw [← h.some_rows.2, readRows_ok φ _ _ _ _ h.aero h.widthA]
  simp only
  rw [allColumns_eq _ _ _ _ h.widthS h.widthA]
  rfl

/-- **C104** A FLEX blade file which ends before the end of its aerodynamic rows is refused. -/
theorem C104 {F : Type} (φ : Num F) (t : Text) (c : Content F) (h : t.Ok φ c) (m : Nat) (hm : m + 1 < t.lines.length) :
    ∃ e, read φ (t.lines.take m) = .error e := by
  match m with
  | 0 => exact ⟨.wrong, rfl⟩
  | 1 => exact ⟨.wrong, rfl⟩
  | j + 2 =>
    unfold Text.lines at hm ⊢
    simp only [List.take_succ_cons]
    rw [read_body φ t c h]
    unfold body
    have hws := width_pos c.version
    by_cases hj : j < t.struct.length
    · rw [List.take_append_of_le_length (by omega), ← List.append_nil (t.struct.take j)]
      rw [readRows_bad φ _ _ _ _ [] (List.forall₂_take j h.struct) (fun r hr => h.widthS r (List.mem_of_mem_take hr))
        (by rw [List.length_take]; omega) (fit_nil φ _ (by omega) _ rfl)]
      exact ⟨_, rfl⟩
    · obtain ⟨i, rfl⟩ : ∃ i, j = t.struct.length + i := ⟨j - t.struct.length, by omega⟩
      rw [List.take_length_add_append, readRows_ok φ _ _ _ _ h.struct h.widthS]
      simp only
      have hdl := damp_len φ c t.damp h.damp
      by_cases hi : i < 1 + t.damp.length
      · cases hdm : damping φ c.version ((t.beta :: (t.damp ++ (t.aero ++ [t.profile]))).take i) with
        | error e => exact ⟨_, rfl⟩
        | ok r =>
          obtain ⟨b, f, e, t', rest⟩ := r
          have := damping_rest φ _ _ _ _ _ _ _ hdm
          rw [← hdl, List.drop_eq_nil_of_le (by rw [List.length_take]; omega)] at this
          subst this
          simp only
          have h1 := h.some_rows.1
          have hb := readRows_bad φ (aeroNames c.version).length t.struct.length [] [] [] .nil (by simp) (by show 0 < _; omega)
            (fit_nil φ _ (by omega) _ rfl)
          rw [List.append_nil] at hb
          rw [hb]
          exact ⟨_, rfl⟩
      · obtain ⟨k, rfl⟩ : ∃ k, i = (t.damp.length + k) + 1 := ⟨i - 1 - t.damp.length, by omega⟩
        rw [List.take_succ_cons, List.take_length_add_append, damping_ok φ c _ _ _ h.beta h.damp]
        simp only
        have hk : k < t.aero.length := by
          simp only [List.length_cons, List.length_append, List.length_nil] at hm; omega
        rw [List.take_append_of_le_length (by omega), ← List.append_nil (t.aero.take k)]
        have h2 := h.some_rows.2
        rw [readRows_bad φ _ _ _ _ [] (List.forall₂_take k h.aero) (fun r hr => h.widthA r (List.mem_of_mem_take hr))
          (by rw [List.length_take]; omega) (fit_nil φ _ (by omega) _ rfl)]
        exact ⟨_, rfl⟩

/-- **C104** Without its last line a file is read with an empty name of the profile file, all else
being as written. -/
theorem C104_last {F : Type} (φ : Num F) (t : Text) (c : Content F) (h : t.Ok φ c) :
    read φ (t.lines.take (t.lines.length - 1)) = read φ ({ t with profile := [] } : Text).lines := by
  have e : t.lines.take (t.lines.length - 1) = t.title :: t.count :: (t.struct ++ t.beta :: (t.damp ++ t.aero)) := by
    have : t.lines = (t.title :: t.count :: (t.struct ++ t.beta :: (t.damp ++ t.aero))) ++ [t.profile] := by
      simp [Text.lines]
    rw [this, List.length_append, List.length_singleton, Nat.add_sub_cancel, List.take_left]
  rw [e]
  have hl : ({ t with profile := [] } : Text).lines = t.title :: t.count :: (t.struct ++ t.beta :: (t.damp ++ (t.aero ++ [[]]))) := rfl
  rw [hl, read_body φ t c h, read_body φ t c h]
  unfold body
  rw [readRows_ok φ _ _ _ _ h.struct h.widthS, readRows_ok φ _ _ _ _ h.struct h.widthS]
  simp only
  rw [damping_ok φ c _ _ _ h.beta h.damp, damping_ok φ c _ _ _ h.beta h.damp]
  simp only
  have := readRows_ok φ _ _ _ [] h.aero h.widthA
  rw [List.append_nil] at this
  rw [← h.some_rows.2, readRows_ok φ _ _ _ _ h.aero h.widthA, this]
  rfl

/-! ### A file -/

/-- toy numbers: digits -/
def digitsOf (s : Str) : Option Nat :=
  if s ≠ [] ∧ s.all Char.isDigit then some ((FastLine.pyInt s).toNat) else none

/-- toy texts of numbers -/
def toy : Num Nat := ⟨digitsOf, fun s => (digitsOf s).map Int.ofNat⟩

/-- a file of version 2 with two sections -/
def exText : Text :=
  ⟨"B002 blade".toList, " 2 sections".toList, ["1 2 3 4 5 6 7 8 9 root".toList, "11 12 13 14 15 16 17 18 19".toList], "3 deg".toList,
    ["1 2 3 4 damping".toList], ["1 21 22 23 24 25 26".toList, "11 31 32 33 34 35 36".toList], " prof.pro".toList⟩

def exContent : Content Nat :=
  ⟨2, [[1, 2, 3, 4, 5, 6, 7, 8, 9], [11, 12, 13, 14, 15, 16, 17, 18, 19]], [[1, 21, 22, 23, 24, 25, 26], [11, 31, 32, 33, 34, 35, 36]],
    3, [1, 2], [3, 4], []⟩

theorem exStarts (l : Str) (v : List Nat) (ws more : List Str) (hw : words l = ws ++ more) (h : ws.map digitsOf = v.map some) :
    Starts toy l v := by
  refine ⟨ws, more, hw, ?_⟩
  clear hw
  induction ws generalizing v with
  | nil =>
    cases v with
    | nil => exact .nil
    | cons _ _ => simp at h
  | cons w ws ih =>
    cases v with
    | nil => simp at h
    | cons x v =>
      simp only [List.map_cons, List.cons.injEq] at h
      exact .cons h.1 (ih v h.2)

theorem exOk : exText.Ok toy exContent where
  version := ⟨by decide, .inl (by decide +kernel)⟩
  count := ⟨"2".toList, ["sections".toList], by decide +kernel, by decide +kernel⟩
  some_rows := ⟨by decide, rfl⟩
  struct := .cons (exStarts _ _ ((words exText.struct[0]).take 9) ["root".toList] (by decide +kernel) (by decide +kernel))
    (.cons (exStarts _ _ (words exText.struct[1]) [] (by decide +kernel) (by decide +kernel)) .nil)
  aero := .cons (exStarts _ _ (words exText.aero[0]) [] (by decide +kernel) (by decide +kernel))
    (.cons (exStarts _ _ (words exText.aero[1]) [] (by decide +kernel) (by decide +kernel)) .nil)
  widthS := by decide
  widthA := by decide
  beta := ⟨"3".toList, ["deg".toList], by decide +kernel, by decide +kernel⟩
  damp := .inl ⟨by decide, "1 2 3 4 damping".toList, rfl,
    exStarts _ _ ["1".toList, "2".toList, "3".toList, "4".toList] ["damping".toList] (by decide +kernel) (by decide +kernel), rfl, rfl, rfl⟩

/-- what C103 says of the file -/
example : (read toy (exText.lines ++ [[]])).toOption.map (fun b => (b.data.take 5, b.data.drop 13)) =
    some ([("r_[m]", [some 1, some 11]), ("EIFlap_[Nm2]", [some 2, some 12]), ("EIEdge_[Nm2]", [some 3, some 13]),
      ("GKt_[Nm2]", [some 9, some 19]), ("Mass_[kg/m]", [some 4, some 14])],
      [("Chord_[m]", [some 21, some 31]), ("AeroTwist_[deg]", [some 22, some 32]), ("RelThickness_[%]", [some 23, some 33]),
       ("AeroCenter_[m]", [some 24, some 34]), ("AeroTorsion_[0/1]", [some 25, some 35]), ("ProfileSet_[#]", [some 26, some 36])]) := by
  rw [C103 toy exText exContent exOk]
  decide +kernel

/-- the prebend and inertia columns of version 3 are missing -/
example : (read toy exText.lines).toOption.map (fun b => (b.data[5]?, b.betaC, b.flapDamping, b.edgeDamping, String.ofList b.profileFile)) =
    some (some ("Jxx_[kg.m]", [none, none]), 3, [1, 2], [3, 4], "prof.pro") := by
  have := C103 toy exText exContent exOk []
  rw [List.append_nil] at this
  rw [this]
  decide +kernel

example : ∃ e, read toy (exText.lines.take 7) = .error e := C104 toy exText exContent exOk 7 (by decide)

/-- a line of damping of version 3 -/
example : StartsSemi toy " 1 2 ; flap ".toList [1, 2] :=
  ⟨"1 2 ".toList, .inr ⟨" flap".toList, by decide +kernel⟩, by decide, by
    rw [show words "1 2 ".toList = ["1".toList, "2".toList] by decide +kernel]
    exact .cons (by decide +kernel) (.cons (by decide +kernel) .nil)⟩

/-- **C105** is violated: a row of one number is read as a row of equal numbers. -/
theorem C105_fails : ((read toy ["B000".toList, "1".toList, "7".toList, "0".toList, "1 2 3 4".toList, "0 1 2 3 4".toList,
    "p".toList]).toOption.map (fun b => b.data.take 3)) =
    some [("r_[m]", [some 7]), ("EIFlap_[Nm2]", [some 7]), ("EIEdge_[Nm2]", [some 7])] := by decide +kernel

/-- **C105** A structural row with less numbers than the version has columns, but not one, or with a
word which is no number among them, is refused with `WrongFormatError`, whatever follows. -/
theorem C105_partial {F : Type} (φ : Num F) (t : Text) (c : Content F) (h : t.Ok φ c) (m : Nat) (hm : m < t.struct.length)
    (bad : Str) (rest : List Str)
    (hbad : (words bad).length < (structNames c.version).length ∧ (words bad).length ≠ 1 ∨
      ∃ w ∈ (words bad).take (structNames c.version).length, φ.parse w = none) :
    read φ (t.title :: t.count :: (t.struct.take m ++ bad :: rest)) = .error .wrong := by
  rw [read_body φ t c h]
  unfold body
  rw [readRows_bad φ _ _ _ _ (bad :: rest) (List.forall₂_take m h.struct) (fun r hr => h.widthS r (List.mem_of_mem_take hr))
    (by rw [List.length_take]; omega) (fit_bad φ _ bad hbad)]

/-- **C105** The same for aerodynamic rows. -/
theorem C105_aero_partial {F : Type} (φ : Num F) (t : Text) (c : Content F) (h : t.Ok φ c) (m : Nat) (hm : m < t.aero.length)
    (bad : Str) (rest : List Str)
    (hbad : (words bad).length < (aeroNames c.version).length ∧ (words bad).length ≠ 1 ∨
      ∃ w ∈ (words bad).take (aeroNames c.version).length, φ.parse w = none) :
    read φ (t.title :: t.count :: (t.struct ++ t.beta :: (t.damp ++ (t.aero.take m ++ bad :: rest)))) = .error .wrong := by
  rw [read_body φ t c h]
  unfold body
  have h2 := h.some_rows.2
  rw [readRows_ok φ _ _ _ _ h.struct h.widthS]
  simp only
  rw [damping_ok φ c _ _ _ h.beta h.damp]
  simp only
  rw [readRows_bad φ _ _ _ _ (bad :: rest) (List.forall₂_take m h.aero) (fun r hr => h.widthA r (List.mem_of_mem_take hr))
    (by rw [List.length_take]; omega) (fit_bad φ _ bad hbad)]

example : read toy (exText.title :: exText.count :: (exText.struct.take 1 ++ "11 12 13 14 15 16 17 18".toList :: ["x".toList])) = .error .wrong :=
  C105_partial toy exText exContent exOk 1 (by decide) _ _ (.inl (by decide +kernel))

example : read toy (exText.title :: exText.count :: (exText.struct ++ exText.beta :: (exText.damp ++
    (exText.aero.take 1 ++ "11 31 x 33 34 35 36".toList :: [])))) = .error .wrong :=
  C105_aero_partial toy exText exContent exOk 1 (by decide) _ _ (.inr (by decide +kernel))

end Verif.FlexBld
