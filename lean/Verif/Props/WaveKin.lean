import Verif.Lemmas.WaveKin
import Verif.Lemmas.FlexDoc
import Verif.Props.Csv
/-!
# FLEX wave kinematics files

Properties C195 to C197.
-/
namespace Verif.WaveKin
open Verif.Py

/-- C195 (partial): a file whose header has the numbers of displacements and depths it announces, and rows with that many values: all numbers of the header are kept
under their names, and the table has all the rows, under the labels of the time, the elevation, and of each velocity and acceleration.  Missing: the velocity
at a depth is labelled with the negated height, the acceleration at the same depth is not. -/
theorem C195_partial {F : Type} (T : Csv.Txt) (N : Num F) (hs ls : List Str) (h : Head) (hh : HeadSays hs h) (rows : List (List Str))
    (hr : HasRows ls (2 + h.displ.length * (2 * h.rel.length)) rows) (hp : Plain T hs) (h1 : N.int h.nDisp = some (h.displ.length : Int))
    (h2 : N.int h.nRel = some (h.rel.length : Int)) :
    ∃ o, read T N (hs ++ ls) = .ok o ∧ o.header = (hs.take 2).map strip ∧ o.crest = N.flt h.crest ∧ o.vel = N.flt h.vel ∧ o.acc = N.flt h.acc ∧
      o.waterDepth = N.flt h.depth ∧ o.hs = N.flt h.hs ∧ o.tp = N.flt h.tp ∧ o.spec = N.flt h.spec ∧ o.relDepth = h.rel.map N.flt ∧ o.displ = h.displ.map N.flt ∧
      o.data = rows.map (List.map some) ∧
      Columns o.columns o.displ o.relDepth (fun z x => "u_z=".toList ++ N.fmt (N.neg (N.mul z o.waterDepth)) ++ "_x=".toList ++ N.fmt x ++ "_[m/s]".toList)
        (fun z x => "a_z=".toList ++ N.fmt (N.mul z o.waterDepth) ++ "_x=".toList ++ N.fmt x ++ "_[m/s^2]".toList) := by
  rw [read_of T N hs ls h hh _ rows hr hp _ _ h1 h2, if_neg (by simp), if_neg (by simp), if_neg (by simp)]
  exact ⟨_, rfl, rfl, rfl, rfl, rfl, rfl, rfl, rfl, rfl, rfl, rfl, rfl, labels_columns N _ _ _⟩

/-- toy texts -/
def exT : Csv.Txt := ⟨fun _ => false, fun w => w.all Char.isDigit, fun w => w.all Char.isAlpha⟩

/-- toy numbers -/
def exN : Num Int := ⟨FastLine.pyInt, fun w => some (FastLine.pyInt w), (· * ·), fun x => -x, fun x => (toString x).toList⟩

/-- the header of a file with one displacement and two depths -/
def exHs : List Str := ["Wave kinematics".toList, " 3".toList, "CrestHeightMax  2 m".toList, "LongitudinalVelocityMax 3 m/s".toList, "LongitudinalAccelerationMax 4 m/s^2".toList,
  "  20  5  12  11  Water Depth/Hs/Tp/spectype".toList, " 1  Number of displacements".toList, "   7".toList, "2  Number of Relative Depths".toList, "  0  1".toList,
  " t  [eta  u_1..u_nDepths  a_1..a_nDepths](x,t) * nDisplacements".toList]

/-- its rows -/
def exLs : List Str := ["  0 1 2 3 4 5".toList, "".toList, "  1 -1 2 -3 4 5".toList]

/-- its numbers -/
def exHead : Head := ⟨"2".toList, "3".toList, "4".toList, "20".toList, "5".toList, "12".toList, "11".toList, "1".toList, "2".toList, ["7".toList], ["0".toList, "1".toList]⟩

theorem exSays : HeadSays exHs exHead := by
  refine ⟨_, _, _, _, _, _, _, _, _, _, _, rfl, ⟨"CrestHeightMax  ".toList, " m".toList, by decide +kernel, by decide, .inr (by decide), isNum_int _ (by decide), .inr (by decide)⟩,
    ⟨"LongitudinalVelocityMax ".toList, " m/s".toList, by decide +kernel, by decide, .inr (by decide), isNum_int _ (by decide), .inr (by decide)⟩,
    ⟨"LongitudinalAccelerationMax ".toList, " m/s^2".toList, by decide +kernel, by decide, .inr (by decide), isNum_int _ (by decide), .inr (by decide)⟩, ?_,
    ⟨[], "  Number of displacements".toList, by decide +kernel, by decide, .inl rfl, isNum_int _ (by decide), .inr (by decide)⟩, ?_,
    ⟨[], "  Number of Relative Depths".toList, by decide +kernel, by decide, .inl rfl, isNum_int _ (by decide), .inr (by decide)⟩, ?_⟩
  · have e : strip "  20  5  12  11  Water Depth/Hs/Tp/spectype".toList =
        [] ++ "20".toList ++ ("  ".toList ++ "5".toList ++ ("  ".toList ++ "12".toList ++ ("  ".toList ++ "11".toList ++ "  Water Depth/Hs/Tp/spectype".toList))) := by decide +kernel
    rw [e]
    exact .cons _ _ _ _ (by decide) (.inl rfl) (isNum_int _ (by decide)) (.inr (by decide)) (.cons _ _ _ _ (by decide) (.inr (by decide)) (isNum_int _ (by decide))
      (.inr (by decide)) (.cons _ _ _ _ (by decide) (.inr (by decide)) (isNum_int _ (by decide)) (.inr (by decide)) (.cons _ _ _ _ (by decide) (.inr (by decide))
      (isNum_int _ (by decide)) (.inr (by decide)) (.nil _ (by decide)))))
  · have e : strip "   7".toList = [] ++ "7".toList ++ [] := by decide +kernel
    rw [e]
    exact .cons _ _ _ _ (by decide) (.inl rfl) (isNum_int _ (by decide)) (.inl rfl) (.nil _ (by decide))
  · have e : strip "  0  1".toList = [] ++ "0".toList ++ ("  ".toList ++ "1".toList ++ []) := by decide +kernel
    rw [e]
    exact .cons _ _ _ _ (by decide) (.inl rfl) (isNum_int _ (by decide)) (.inr (by decide)) (.cons _ _ _ _ (by decide) (.inr (by decide)) (isNum_int _ (by decide))
      (.inl rfl) (.nil _ (by decide)))

theorem exPlain0 (r : List Str) : Plain exT ("Wave kinematics".toList :: r) := by
  intro l hl w0 w1 r hw h
  obtain rfl : "Wave kinematics".toList = l := Option.some.inj hl
  have e : words "Wave kinematics".toList = ["Wave".toList, "kinematics".toList] := by decide +kernel
  rw [e] at hw
  obtain rfl : "Wave".toList = w0 := (List.cons.inj hw).1
  exact absurd h.1 (by decide)

theorem exPlain : Plain exT exHs := exPlain0 _

theorem exRows : HasRows exLs 6 [["0".toList, "1".toList, "2".toList, "3".toList, "4".toList, "5".toList], ["1".toList, "-1".toList, "2".toList, "-3".toList, "4".toList, "5".toList]] :=
  ⟨by decide +kernel, by simp, by decide, by decide⟩

example : ∃ o, read exT exN (exHs ++ exLs) = .ok o ∧ o.waterDepth = 20 ∧ o.columns[3]? = some "u_z=-20_x=7_[m/s]".toList := by
  obtain ⟨o, ho, _, _, _, _, h5, _, _, _, h9, h10, _, h12⟩ := C195_partial exT exN exHs exLs exHead exSays _ exRows exPlain rfl rfl
  have h5' : o.waterDepth = 20 := h5
  rw [h9, h10, h5'] at h12
  have := (h12.2.2.2 0 7 1 1 rfl rfl).1
  exact ⟨o, ho, h5', this.trans (by decide +kernel)⟩

/-- C195: the labels of the velocity and of the acceleration at a point give different heights -/
theorem C195_fails : ∃ (T : Csv.Txt) (N : Num Int) (hs ls : List Str) (h : Head), HeadSays hs h ∧ h.displ = ["7".toList] ∧ h.rel = ["0".toList, "1".toList] ∧
    ∃ o, read T N (hs ++ ls) = .ok o ∧ o.columns[3]? = some "u_z=-20_x=7_[m/s]".toList ∧ o.columns[5]? = some "a_z=20_x=7_[m/s^2]".toList := by
  obtain ⟨o, ho, _, _, _, _, h5, _, _, _, h9, h10, _, h12⟩ := C195_partial exT exN exHs exLs exHead exSays _ exRows exPlain rfl rfl
  have h5' : o.waterDepth = 20 := h5
  rw [h9, h10, h5'] at h12
  have := h12.2.2.2 0 7 1 1 rfl rfl
  exact ⟨exT, exN, exHs, exLs, exHead, exSays, rfl, rfl, o, ho, this.1.trans (by decide +kernel), this.2.trans (by decide +kernel)⟩

/-- C196 (partial): a row has the time and, for each displacement, the elevation, the velocities and the accelerations.  A file with one displacement is read.
Missing: with another number of displacements the table is refused. -/
theorem C196_partial {F : Type} (T : Csv.Txt) (N : Num F) (hs ls : List Str) (h : Head) (hh : HeadSays hs h) (rows : List (List Str))
    (hr : HasRows ls (1 + h.displ.length * (1 + 2 * h.rel.length)) rows) (hp : Plain T hs) (h1 : N.int h.nDisp = some (h.displ.length : Int))
    (h2 : N.int h.nRel = some (h.rel.length : Int)) (hd : h.displ.length = 1) :
    ∃ o, read T N (hs ++ ls) = .ok o ∧ o.data = rows.map (List.map some) ∧ o.columns.length = 2 + 2 * h.rel.length := by
  have e : 1 + h.displ.length * (1 + 2 * h.rel.length) = 2 + h.displ.length * (2 * h.rel.length) := by rw [hd]; omega
  rw [e] at hr
  rw [read_of T N hs ls h hh _ rows hr hp _ _ h1 h2, if_neg (by simp), if_neg (by simp), if_neg (by simp)]
  exact ⟨_, rfl, rfl, by rw [labels_length, List.length_map, List.length_map, hd]; omega⟩

example : ∃ o, read exT exN (exHs ++ exLs) = .ok o ∧ o.columns.length = 6 := by
  obtain ⟨o, ho, _, h⟩ := C196_partial exT exN exHs exLs exHead exSays _ exRows exPlain rfl rfl rfl
  exact ⟨o, ho, h⟩

/-- C196: whatever the file, with another number of displacements than one its table, with an elevation for each displacement, is refused -/
theorem C196_refused {F : Type} (T : Csv.Txt) (N : Num F) (hs ls : List Str) (h : Head) (hh : HeadSays hs h) (rows : List (List Str))
    (hr : HasRows ls (1 + h.displ.length * (1 + 2 * h.rel.length)) rows) (hp : Plain T hs) (h1 : N.int h.nDisp = some (h.displ.length : Int))
    (h2 : N.int h.nRel = some (h.rel.length : Int)) (hd : h.displ.length ≠ 1) : read T N (hs ++ ls) = .error .broken := by
  rw [read_of T N hs ls h hh _ rows hr hp _ _ h1 h2, if_neg (by simp), if_neg (by simp), if_pos]
  rw [Nat.mul_add]
  omega

/-- the header with two displacements -/
def exHs2 : List Str := exHs.take 6 ++ [" 2  Number of displacements".toList, "   7 8".toList] ++ exHs.drop 8

/-- its numbers -/
def exHead2 : Head := { exHead with nDisp := "2".toList, displ := ["7".toList, "8".toList] }

/-- a row for it: the time, and twice an elevation, two velocities, two accelerations -/
def exLs2 : List Str := ["  0 1 2 3 4 5 1 2 3 4 5".toList]

theorem exSays2 : HeadSays exHs2 exHead2 := by
  obtain ⟨l0, l1, l2, l3, l4, l5, l6, l7, l8, l9, l10, e, e2, e3, e4, e5, e6, e7, e8, e9⟩ := exSays
  refine ⟨l0, l1, l2, l3, l4, l5, " 2  Number of displacements".toList, "   7 8".toList, l8, l9, l10, ?_, e2, e3, e4, e5,
    ⟨[], "  Number of displacements".toList, ?_, by decide, .inl rfl, isNum_int _ (by decide), .inr (by decide)⟩, ?_, e8, e9⟩
  · rw [exHs2, e]
    rfl
  · decide +kernel
  · have e : strip "   7 8".toList = [] ++ "7".toList ++ (" ".toList ++ "8".toList ++ []) := by decide +kernel
    rw [e]
    exact .cons _ _ _ _ (by decide) (.inl rfl) (isNum_int _ (by decide)) (.inr (by decide)) (.cons _ _ _ _ (by decide) (.inr (by decide)) (isNum_int _ (by decide))
      (.inl rfl) (.nil _ (by decide)))

theorem exPlain2 : Plain exT exHs2 := by
  have e : exHs2 = "Wave kinematics".toList :: exHs2.tail := by rw [exHs2, exHs]; rfl
  rw [e]
  exact exPlain0 _

theorem exRows2 : HasRows exLs2 11 [["0", "1", "2", "3", "4", "5", "1", "2", "3", "4", "5"].map String.toList] :=
  ⟨by decide +kernel, by simp, by decide, by decide⟩

/-- C196: a file with two displacements is refused -/
theorem C196_fails : ∃ (T : Csv.Txt) (N : Num Int) (hs ls : List Str) (h : Head) (rows : List (List Str)), HeadSays hs h ∧ HasRows ls (1 + h.displ.length * (1 + 2 * h.rel.length)) rows ∧
    N.int h.nDisp = some (h.displ.length : Int) ∧ N.int h.nRel = some (h.rel.length : Int) ∧ read T N (hs ++ ls) = .error .broken :=
  ⟨exT, exN, exHs2, exLs2, exHead2, _, exSays2, exRows2, rfl, rfl, C196_refused exT exN exHs2 exLs2 exHead2 exSays2 _ exRows2 exPlain2 rfl rfl (by decide)⟩

/-- C197: a file whose header announces another number of displacements or depths than it lists is refused -/
theorem C197 {F : Type} (T : Csv.Txt) (N : Num F) (hs ls : List Str) (h : Head) (hh : HeadSays hs h) (n : Nat) (rows : List (List Str)) (hr : HasRows ls n rows)
    (hp : Plain T hs) (nd nr : Int) (h1 : N.int h.nDisp = some nd) (h2 : N.int h.nRel = some nr) (hne : nd ≠ h.displ.length ∨ nr ≠ h.rel.length) :
    read T N (hs ++ ls) = .error .broken := by
  rw [read_of T N hs ls h hh n rows hr hp nd nr h1 h2]
  by_cases hd : (h.displ.length : Int) = nd
  · rw [if_neg (by simpa using hd), if_pos]
    rcases hne with h' | h'
    · exact absurd hd.symm h'
    · exact fun e => h' e.symm
  · rw [if_pos hd]

/-- C197: so is one whose rows have another number of values than the header asks for -/
theorem C197_columns {F : Type} (T : Csv.Txt) (N : Num F) (hs ls : List Str) (h : Head) (hh : HeadSays hs h) (n : Nat) (rows : List (List Str)) (hr : HasRows ls n rows)
    (hp : Plain T hs) (h1 : N.int h.nDisp = some (h.displ.length : Int)) (h2 : N.int h.nRel = some (h.rel.length : Int))
    (hn : n ≠ 2 + h.displ.length * (2 * h.rel.length)) : read T N (hs ++ ls) = .error .broken := by
  rw [read_of T N hs ls h hh n rows hr hp _ _ h1 h2, if_neg (by simp), if_neg (by simp), if_pos hn.symm]

/-- C197: a text that is no table is not one of these files -/
theorem C197_wrong {F : Type} (T : Csv.Txt) (N : Num F) (lines : List Str) (e : Csv.Err) (_he : e ≠ .unmodelled)
    (h : Csv.read T { sep := some (.ch ' '), commentLines := List.range 11, detect := false } lines = .error e) : read T N lines = .error .wrong := by
  rw [read, h]

example : read exT { exN with int := fun _ => some 2 } (exHs ++ exLs) = .error .broken :=
  C197 exT _ exHs exLs exHead exSays _ _ exRows exPlain 2 2 rfl rfl (.inl (by decide))

example : read exT exN (exHs ++ exLs2) = .error .broken :=
  C197_columns exT exN exHs exLs2 exHead exSays _ _ exRows2 exPlain rfl rfl (by decide)

example : read exT exN (exHs.take 5) = .error .wrong :=
  C197_wrong exT exN _ .emptyData (by decide) (by decide +kernel)

end Verif.WaveKin
