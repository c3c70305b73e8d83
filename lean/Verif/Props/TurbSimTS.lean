import Verif.Lemmas.TurbSimTS
import Verif.Lemmas.St
import Verif.Lemmas.HawcAe
import Verif.Lemmas.Hawc2Sel
import Verif.Lemmas.Bhawc
import Verif.Lemmas.DeckRead
import Verif.Lemmas.Yaml
import Mathlib.Data.List.Forall2
import Mathlib.Tactic
/-! # Properties of TurbSim time series files -/
namespace Verif.TurbSimTS
open Verif.Py
open Verif.St (Num)
open Verif.DeckRead (bind_ok ok_bind)

/-- whole numbers only -/
def toy : Num Int where
  flt w := if FastLine.strIsInt w then some (FastLine.pyInt w) else none
  int w := if FastLine.strIsInt w then some (FastLine.pyInt w) else none

/-- **C151** A time series file with ten lines at most before the line which speaks of `nComp` is read as
its header lines without the blanks at their ends, the three counts, the coordinates of its points and its
rows, up to the first blank line. -/
theorem C151 {F : Type} (φ : Num F) (t : TsText F) (h : t.Ok φ) (s : Str) (hs : HasLines s t.lines) :
    ∃ o, read φ s = .ok o ∧ o.header = t.head.map strip ∧ o.nComp = t.nComp ∧ o.id = t.id ∧
      o.points = t.pts.map Prod.snd ∧ o.data = t.rows.map Prod.snd :=
  ⟨_, read_ok φ t h s hs, rfl, rfl, rfl, rfl, rfl⟩

/-- a file of two components at one point -/
def exText : TsText Int where
  head := [" a title".toList]
  compLine := "2 nComp - components".toList
  numLine := " 1 nPoints".toList
  idLine := "1 RefPtID".toList
  nComp := 2
  id := 1
  title := "y z".toList
  unit := "(m) (m)".toList
  pts := [(" 0 90".toList, 0, 90)]
  sep := "-----".toList
  names := "Time u v".toList
  units := "(s)".toList
  rows := [("0 7 8".toList, [0, 7, 8]), ("1 9 6".toList, [1, 9, 6])]
  rest := ["  ".toList, "7 x".toList]

theorem exText_ok : exText.Ok toy where
  len := by decide
  head := by unfold IsComp; decide
  comp := by unfold IsComp; decide
  nComp := ⟨"2".toList, _, rfl, by decide +kernel⟩
  num := ⟨"1".toList, _, rfl, by decide +kernel⟩
  id := ⟨"1".toList, _, rfl, by decide +kernel⟩
  pts := by
    intro p hp
    obtain rfl := List.mem_singleton.1 hp
    exact .cons (by decide +kernel) (.cons (by decide +kernel) .nil)
  rows := by
    intro r hr
    rcases List.mem_cons.1 hr with rfl | hr
    · exact ⟨by decide, .cons (by decide +kernel) (.cons (by decide +kernel) (.cons (by decide +kernel) .nil))⟩
    · obtain rfl := List.mem_singleton.1 hr
      exact ⟨by decide, .cons (by decide +kernel) (.cons (by decide +kernel) (.cons (by decide +kernel) .nil))⟩
  width := ⟨3, by decide⟩
  rest := .inr ⟨_, _, rfl, by decide⟩

example : ∃ o, read toy (HawcAe.unlines exText.lines) = .ok o ∧ o.header = ["a title".toList] ∧ o.nComp = 2 ∧ o.id = 1 ∧
    o.points = [(0, 90)] ∧ o.data = [[0, 7, 8], [1, 9, 6]] :=
  C151 toy exText exText_ok _ ⟨by decide, .inl rfl⟩

/-- **C152** A time series with one to ten header lines which is saved and read again has the same header,
counts, points and rows, the numbers being those of their texts. -/
theorem C152 {F : Type} (φ : Num F) (e : F → Str) (rd : F → F) (o : Obj F) (h : Writable φ e rd o) (hh : o.header ≠ []) :
    ∃ s o', toString e o = .ok s ∧ read φ s = .ok o' ∧ o'.header = o.header ∧ o'.nComp = o.nComp ∧ o'.id = o.id ∧
      o'.points = o.points.map (fun p => (rd p.1, rd p.2)) ∧ o'.data = o.data.map (List.map rd) := by
  obtain ⟨s, h1, h2⟩ := saved_read φ e rd o h o.header h.len h.head (join_header _ hh)
  exact ⟨s, _, h1, h2, rfl, rfl, rfl, rfl, rfl⟩

/-- a text of a whole number with a blank before it -/
def exE (n : Int) : Str := ' ' :: St.showInt n

/-- two components at one point -/
def exObj : Obj Int := ⟨["a title".toList], 2, 1, [(0, 90)], [[0, 7, 8], [1, 9, 6]]⟩

theorem exToyInt (n : Int) : toy.int (St.showInt n) = some n := by
  show (if FastLine.strIsInt (FastLine.showInt n) then some (FastLine.pyInt (FastLine.showInt n)) else none) = some n
  rw [if_pos (FastLine.strIsInt_showInt n), FastLine.pyInt_showInt]

theorem exPrints (n : Int) : Prints toy exE id n :=
  ⟨0, St.showInt n, rfl, HawcAe.isWord_showInt n, exToyInt n⟩

theorem exObj_writable (h : List Str) (hl : h.length ≤ 10) (hh : ∀ l ∈ h, '\n' ∉ l ∧ strip l = l ∧ ¬ IsComp l) :
    Writable toy exE id { exObj with header := h } where
  len := hl
  head := hh
  comp := by show (2 : Int) ≤ 3; decide
  ints := exToyInt
  pts := fun _ _ => ⟨exPrints _, exPrints _⟩
  rows := fun r hr => ⟨by
    rcases List.mem_cons.1 hr with rfl | hr
    · simp
    · obtain rfl := List.mem_singleton.1 hr
      simp, fun _ _ => exPrints _⟩
  width := ⟨3, by show ∀ r ∈ exObj.data, r.length = 3; decide⟩

example : ∃ s o', toString exE exObj = .ok s ∧ read toy s = .ok o' ∧ o'.header = ["a title".toList] ∧ o'.nComp = 2 ∧ o'.id = 1 ∧
    o'.points = [(0, 90)] ∧ o'.data = [[0, 7, 8], [1, 9, 6]] :=
  C152 toy exE id exObj (exObj_writable ["a title".toList] (by decide) (by unfold IsComp; decide)) (by decide)

/-- a file whose first line is that of `nComp` -/
def exBare : Str := HawcAe.unlines { exText with head := [] }.lines

/-- **C153** fails: a file without header lines is read, saved and read again with a header line. -/
theorem C153_fails : ∃ o s o', read toy exBare = .ok o ∧ o.header = [] ∧ toString exE o = .ok s ∧ read toy s = .ok o' ∧
    o'.header ≠ o.header := by
  have hr := read_ok toy { exText with head := [] }
    ⟨by decide, by simp, exText_ok.comp, exText_ok.nComp, exText_ok.num, exText_ok.id, exText_ok.pts, exText_ok.rows,
      exText_ok.width, exText_ok.rest⟩ exBare ⟨by decide, .inl rfl⟩
  obtain ⟨s, h1, h2⟩ := saved_read toy exE id { exObj with header := [] } (exObj_writable [] (by decide) (by simp)) [[]] (by decide)
    (by unfold IsComp; decide) rfl
  exact ⟨_, s, _, hr, rfl, h1, h2, by simp [Obj.rounded]⟩

/-- **C153**, as far as it holds: such a file is saved and read again with one empty header line, and the
same counts, points and rows. -/
theorem C153_partial {F : Type} (φ : Num F) (e : F → Str) (rd : F → F) (o : Obj F) (h : Writable φ e rd o) (hh : o.header = []) :
    ∃ s o', toString e o = .ok s ∧ read φ s = .ok o' ∧ o'.header = [[]] ∧ o'.nComp = o.nComp ∧ o'.id = o.id ∧
      o'.points = o.points.map (fun p => (rd p.1, rd p.2)) ∧ o'.data = o.data.map (List.map rd) := by
  obtain ⟨s, h1, h2⟩ := saved_read φ e rd o h [[]] (by decide)
    (by
      intro l hl
      obtain rfl := List.mem_singleton.1 hl
      exact ⟨by decide, rfl, by unfold IsComp; decide⟩) (by rw [hh]; rfl)
  exact ⟨s, _, h1, h2, rfl, rfl, rfl, rfl, rfl⟩

example : ∃ s o', toString exE { exObj with header := [] } = .ok s ∧ read toy s = .ok o' ∧ o'.header = [[]] ∧ o'.nComp = 2 ∧ o'.id = 1 ∧
    o'.points = [(0, 90)] ∧ o'.data = [[0, 7, 8], [1, 9, 6]] :=
  C153_partial toy exE id _ (exObj_writable [] (by decide) (by simp)) rfl

/-- **C154** A file with a row of data which is not of numbers, or with rows of different lengths, is
refused. -/
theorem C154 {F : Type} (φ : Num F) (s : Str) (head : List Str) (l n i a b : Str) (c m : Int) (pts : List Str) (x y z : Str)
    (rows rest : List Str)
    (hs : HasLines s (head ++ l :: n :: i :: a :: b :: (pts ++ (x :: y :: z :: (rows ++ rest)))))
    (hi : head.length ≤ 10) (hh : ∀ x ∈ head, ¬ IsComp x) (hl : IsComp l)
    (h1 : Starts φ l c) (h2 : Starts φ n (pts.length : Int)) (h3 : Starts φ i m) (hb : ∀ r ∈ rows, words r ≠ [])
    (h : (∃ r ∈ rows, ∃ w ∈ words r, φ.flt w = none) ∨ (∃ r ∈ rows, ∃ r' ∈ rows, (words r).length ≠ (words r').length))
    (hr : rest = [] ∨ ∃ b r, rest = b :: r ∧ ∀ c ∈ b, isWs c = true) : read φ s = .error .value := by
  rw [read_lines φ s _ _ _ hs hi hh hl, readBody_ok φ _ _ _ _ _ _ _ _ _ _ h1 h2 h3]
  cases hp : readPoints φ pts.length (pts ++ (x :: y :: z :: (rows ++ rest))) with
  | error e =>
    rw [readPoints_error φ _ _ e hp]
    rfl
  | ok r =>
    obtain ⟨ps, r⟩ := r
    have := readPoints_rest φ _ _ _ hp
    simp only [List.drop_left] at this
    subst this
    simp only [ok_bind, List.drop_succ_cons, List.drop_zero]
    rw [readData_bad φ rows rest hb h hr]
    rfl

example : read toy "2 nComp\n1 nPoints\n1 ID\n\n\n0 90\n\n\n\n0 7 8\n1 9\n".toList = .error .value :=
  C154 toy _ [] "2 nComp".toList "1 nPoints".toList "1 ID".toList [] [] 2 1 ["0 90".toList] [] [] [] ["0 7 8".toList, "1 9".toList] []
    ⟨by decide, .inl rfl⟩ (by decide) (by simp) (by unfold IsComp; decide) ⟨"2".toList, _, rfl, by decide +kernel⟩
    ⟨"1".toList, _, rfl, by decide +kernel⟩ ⟨"1".toList, _, rfl, by decide +kernel⟩ (by decide)
    (.inr ⟨"0 7 8".toList, by simp, "1 9".toList, by simp, by decide⟩) (.inl rfl)

/-- **C154** A file one of whose three counts is no whole number, or whose number of points is negative, is
refused. -/
theorem C154_counts {F : Type} (φ : Num F) (s : Str) (head : List Str) (l : Str) (ls : List Str)
    (hs : HasLines s (head ++ l :: ls)) (hi : head.length ≤ 10) (hh : ∀ x ∈ head, ¬ IsComp x) (hl : IsComp l)
    (hc : (∀ n, ¬ Starts φ l n) ∨ (∀ n : Int, 0 ≤ n → ¬ Starts φ (ls.getD 0 []) n) ∨ (∀ n, ¬ Starts φ (ls.getD 1 []) n)) :
    ∃ e, read φ s = .error e := by
  rw [read_lines φ s _ _ _ hs hi hh hl]
  exact readBody_counts φ _ l ls hc

example : ∃ e, read toy "2 nComp\nx nPoints\n1 ID\n".toList = .error e :=
  C154_counts toy _ [] "2 nComp".toList ["x nPoints".toList, "1 ID".toList] ⟨by decide, .inl rfl⟩ (by decide) (by simp)
    (by unfold IsComp; decide) (.inr (.inl (by
      rintro n - ⟨w, t, hw, hn⟩
      have hx : toy.int "x".toList = none := by decide +kernel
      obtain ⟨rfl, -⟩ := List.cons.inj (show ["x".toList, "nPoints".toList] = w :: t from hw)
      rw [hx] at hn
      cases hn)))

/-- **C155** fails: a point with one coordinate is read, the number being repeated. -/
theorem C155_fails : ∃ o, read toy "2 nComp\n1 nPoints\n1 ID\n\n\n90\n\n\n\n0 7 8\n".toList = .ok o ∧ o.points = [(90, 90)] := by
  refine ⟨⟨[], 2, 1, [(90, 90)], [[0, 7, 8]]⟩, ?_, rfl⟩
  refine (read_lines toy _ [] "2 nComp".toList ["1 nPoints".toList, "1 ID".toList, [], [], "90".toList, [], [], [], "0 7 8".toList]
    ⟨by decide, .inl (by decide)⟩ (by decide) (by simp) (by unfold IsComp; decide)).trans ?_
  rfl

/-- **C155**, as far as it holds: a file one of whose lines of coordinates has none, three or more, or
something which is no number, or which is cut before them, is refused. -/
theorem C155_partial {F : Type} (φ : Num F) (s : Str) (head : List Str) (l n i a b : Str) (c m : Int) (k : Nat) (ls : List Str)
    (hs : HasLines s (head ++ l :: n :: i :: a :: b :: ls))
    (hi : head.length ≤ 10) (hh : ∀ x ∈ head, ¬ IsComp x) (hl : IsComp l)
    (h1 : Starts φ l c) (h2 : Starts φ n (k : Int)) (h3 : Starts φ i m) (j : Nat) (hj : j < k)
    (h : (∃ w ∈ words (ls.getD j []), φ.flt w = none) ∨ ((words (ls.getD j [])).length ≠ 1 ∧ (words (ls.getD j [])).length ≠ 2)) :
    read φ s = .error .value := by
  rw [read_lines φ s _ _ _ hs hi hh hl, readBody_ok φ _ _ _ _ _ _ _ _ _ _ h1 h2 h3,
    readPoints_bad φ k ls j hj (pointRow_bad φ _ h)]
  rfl

example : read toy "2 nComp\n2 nPoints\n1 ID\n\n\n0 90\n".toList = .error .value :=
  C155_partial toy _ [] "2 nComp".toList "2 nPoints".toList "1 ID".toList [] [] 2 1 2 ["0 90".toList]
    ⟨by decide, .inl rfl⟩ (by decide) (by simp) (by unfold IsComp; decide) ⟨"2".toList, _, rfl, by decide +kernel⟩
    ⟨"2".toList, _, rfl, by decide +kernel⟩ ⟨"1".toList, _, rfl, by decide +kernel⟩ 1 (by decide) (.inr (by decide))

/-- **C156** The data frame of a time series with three components at most, whose rows have a time and one
number for each component of each point, has these rows; its first column is the time, the column of
component `ic` of point `ip` has their names, and all names are different.  The frame of the points has a
row for each point. -/
theorem C156 {F : Type} (o : Obj F) (m : Nat) (hm : o.nComp = (m : Int)) (h3 : m ≤ 3)
    (hd : o.data ≠ []) (hw : ∀ r ∈ o.data, r.length = 1 + m * o.points.length) :
    ∃ P T, toDataFrame o = .ok (P, T) ∧ P.cols = ["PointYi".toList, "PointZi".toList] ∧ P.rows = o.points.map (fun p => [p.1, p.2]) ∧
      T.rows = o.data ∧ T.cols.length = 1 + m * o.points.length ∧ T.cols.Nodup ∧ T.cols[0]? = some "Time_[s]".toList ∧
      ∀ ic ip, ic < m → ip < o.points.length → T.cols[1 + (ic * o.points.length + ip)]? = some (compName ic ip) := by
  have hmn : o.nComp.toNat = m := by omega
  have hn := frame_names o (by omega)
  rw [hmn] at hn
  refine ⟨_, ⟨_, _⟩, by
    unfold toDataFrame
    rw [columns_ok o (by omega), ok_bind, hmn]
    simp only []
    rw [hn, if_neg]
    simp only [List.length_cons, List.length_map, length_pairs, ne_eq, not_not]
    split
    · rename_i h0
      exact absurd h0 hd
    · rename_i r t h0
      rw [hw r (by rw [h0]; simp)]
      omega, rfl, rfl, rfl, ?_, ?_, rfl, ?_⟩
  · simp only [List.length_cons, List.length_map, length_pairs]
    omega
  · refine List.nodup_cons.2 ⟨?_, ?_⟩
    · intro hc
      obtain ⟨p, -, hp⟩ := List.mem_map.1 hc
      exact compName_ne _ _ hp.symm
    · refine List.Nodup.map_on ?_ (nodup_pairs _ _)
      intro p hp q hq h
      have := compName_inj (by have := (mem_pairs hp).1; omega) (by have := (mem_pairs hq).1; omega) h
      exact Prod.ext this.1 this.2
  · intro ic ip h1 h2
    rw [Nat.add_comm, List.getElem?_cons_succ, List.getElem?_map, pairs_getElem _ _ _ _ h1 h2]
    rfl

example : ∃ P T, toDataFrame exObj = .ok (P, T) ∧ P.cols = ["PointYi".toList, "PointZi".toList] ∧ P.rows = [[0, 90]] ∧
    T.rows = [[0, 7, 8], [1, 9, 6]] ∧ T.cols = ["Time_[s]".toList, "Point1u_[m/s]".toList, "Point1v_[m/s]".toList] :=
  ⟨_, _, rfl, rfl, rfl, rfl, by decide +kernel⟩

example : ∃ P T, toDataFrame exObj = .ok (P, T) ∧ P.cols = ["PointYi".toList, "PointZi".toList] ∧ P.rows = [[0, 90]] ∧
    T.rows = [[0, 7, 8], [1, 9, 6]] ∧ T.cols.length = 3 ∧ T.cols.Nodup ∧ T.cols[0]? = some "Time_[s]".toList ∧
      ∀ ic ip, ic < 2 → ip < 1 → T.cols[1 + (ic * 1 + ip)]? = some (compName ic ip) :=
  C156 exObj 2 rfl (by decide) (by decide) (by decide)

/-- **C156** There is no data frame when the rows have another number of columns. -/
theorem C156_width {F : Type} (o : Obj F) (m : Nat) (hm : o.nComp = (m : Int)) (h3 : m ≤ 3) (r : List F) (t : List (List F))
    (hd : o.data = r :: t) (hw : r.length ≠ 1 + m * o.points.length) : toDataFrame o = .error .value := by
  have hmn : o.nComp.toNat = m := by omega
  have hn := frame_names o (by omega)
  rw [hmn] at hn
  unfold toDataFrame
  rw [columns_ok o (by omega), ok_bind, hmn]
  simp only []
  rw [hn, if_pos]
  simp only [List.length_cons, List.length_map, length_pairs, hd]
  omega

example : toDataFrame { exObj with data := [[0, 7]] } = .error .value :=
  C156_width _ 2 rfl (by decide) [0, 7] [] rfl (by decide)

/-- **C157** A text none of whose first eleven lines speaks of `nComp` is refused, as a broken file if it
has twelve lines or more. -/
theorem C157 {F : Type} (φ : Num F) (s : Str) (ls : List Str) (hs : HasLines s ls) (h : ∀ l ∈ ls.take 11, ¬ IsComp l) :
    (∃ e, read φ s = .error e) ∧ (12 ≤ ls.length → read φ s = .error .broken) := by
  have key : 12 ≤ ls.length → read φ s = .error .broken := by
    intro hl
    unfold read
    rw [readlines_of hs, findComp_long 0 none ls h (by omega) (by omega)]
    rfl
  refine ⟨?_, key⟩
  by_cases hl : 12 ≤ ls.length
  · exact ⟨_, key hl⟩
  · unfold read
    rw [readlines_of hs]
    rw [List.take_of_length_le (by omega)] at h
    rcases findComp_short 0 none ls h (by omega) with ⟨e, he, -⟩ | ⟨hd, l, he⟩
    · rw [he]
      exact ⟨_, rfl⟩
    · rw [he]
      exact readBody_counts φ hd l [] (.inr (.inl (fun n _ => starts_nil φ n)))

example : (∃ e, read toy "3\nhello\n".toList = .error e) ∧ (12 ≤ 2 → read toy "3\nhello\n".toList = .error .broken) :=
  C157 toy _ ["3".toList, "hello".toList] ⟨by decide, .inl rfl⟩ (by unfold IsComp; decide)

end Verif.TurbSimTS
