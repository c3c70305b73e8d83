import Mathlib.Data.List.Forall2
import Verif.Props.FastRead
/-!
# C91: AeroDyn 14 polars — `/repo/weio/fast_input_file.py`, 840-895

A polar of AeroDyn 14 has no key/value lines: it is recognised by the words of its 13th
and 14th lines.  Here: what is read from such a file, and that nothing else is taken for one.
-/
namespace Verif.FastAD14
open Verif.Py Verif.FastLine Verif.FastRead
open Verif.FastDict (Entry)

/-- `w` is the lower-case text `t`, in any case -/
def Cased (w t : Str) : Prop := List.Forall₂ (fun c d => c = d ∨ c = d.toUpper) w t

/-- a header line: a number, then words -/
def HeadLine (N : Num) (l : Str) (v : N.F × List Str) : Prop :=
  ∃ w, words l = w :: v.2 ∧ N.parse w = some v.1

/-- a line of numbers -/
def RowLine (N : Num) (l : Str) (row : List N.F) : Prop :=
  List.Forall₂ (fun w x => N.parse w = some x) (words l) row

/-- the 12 header lines announce `n` tables and the file format: the first is the number of
tables, the second gives their names, the 11th and 12th speak of an angle and of a minimum
after as many values as there are tables -/
structure Header (n : Nat) (hs : List Str) : Prop where
  len : hs.length = 12
  num : ∃ r, words (hs.getD 0 []) = Nat.toDigits 10 n :: r
  ids : n < (words (hs.getD 1 [])).length
  angle : ∃ w, (words (hs.getD 10 []))[n]? = some w ∧ Cased w "angle".toList
  minimum : ∃ w, (words (hs.getD 11 []))[n]? = some w ∧ Cased w "minimum".toList

/-- the entry of a header line: the number, under the words that follow it -/
def headItem {F : Type} (v : F × List Str) : Item F :=
  { label := joinWith [' '] v.2, value := .plain (.scalar (.flt v.1)), descr := joinWith [' '] v.2 }

/-- the name of table `k` of `n`: none when there is only one -/
def tableId (n : Nat) (hs : List Str) (k : Nat) : Str :=
  if n = 1 then [] else (words (hs.getD 1 [])).getD k []

/-- the columns of a polar with `n` tables: `Cl`, `Cd`, `Cm` of each, or `Cl`, `Cd` of each, or
columns that are only numbered -/
def Columns (n : Nat) (hs : List Str) (w : Nat) (names : List Str) (units : Option (List Str)) : Prop :=
  names.length = w ∧
  (w = 1 + 3 * n → names[0]? = some "Alpha".toList ∧ (∀ k < n,
      names[1 + 3 * k]? = some ("Cl".toList ++ tableId n hs k) ∧
      names[1 + 3 * k + 1]? = some ("Cd".toList ++ tableId n hs k) ∧
      names[1 + 3 * k + 2]? = some ("Cm".toList ++ tableId n hs k)) ∧
    units = some ("(deg)".toList :: List.replicate (3 * n) "(-)".toList)) ∧
  (w ≠ 1 + 3 * n → w = 1 + 2 * n → names[0]? = some "Alpha".toList ∧ (∀ k < n,
      names[1 + 2 * k]? = some ("Cl".toList ++ tableId n hs k) ∧
      names[1 + 2 * k + 1]? = some ("Cd".toList ++ tableId n hs k)) ∧
    units = some ("(deg)".toList :: List.replicate (2 * n) "(-)".toList)) ∧
  (w ≠ 1 + 3 * n → w ≠ 1 + 2 * n → units = none ∧
    ∀ j < w, names[j]? = some ("col".toList ++ Nat.toDigits 10 j))

/-! ### lemmas -/

theorem cased_lower (w t : Str) (h : Cased w t) (ht : ∀ d ∈ t, d.toLower = d ∧ d.toUpper.toLower = d) :
    lower w = t := by
  induction h with
  | nil => rfl
  | @cons c d w t hc _ ih =>
    have h1 := ht d (by simp)
    have h2 := ih (fun d hd => ht d (by simp [hd]))
    have h3 : c.toLower = d := by
      rcases hc with rfl | rfl
      · exact h1.1
      · exact h1.2
    show c.toLower :: lower w = d :: t
    rw [h3, h2]

theorem upper_lower : ∀ n < 91, 65 ≤ n → (Char.ofNat n).toLower.toUpper = Char.ofNat n := by decide +kernel

theorem toLower_cases (c : Char) : c.toLower = c ∨ c = c.toLower.toUpper := by
  by_cases h : c.toNat < 91 ∧ 65 ≤ c.toNat
  · right
    have := upper_lower c.toNat h.1 h.2
    rw [Char.ofNat_toNat] at this
    exact this.symm
  · left
    unfold Char.toLower
    split
    · next hc =>
      exfalso
      apply h
      have h1 := UInt32.le_iff_toNat_le.1 hc.1
      have h2 := UInt32.le_iff_toNat_le.1 hc.2
      exact ⟨Nat.lt_succ_of_le h2, h1⟩
    · rfl

theorem lower_cased (w t : Str) (h : lower w = t) : Cased w t := by
  subst h
  induction w with
  | nil => exact .nil
  | cons c w ih =>
    refine .cons ?_ ih
    rcases toLower_cases c with e | e
    · exact .inl e.symm
    · exact .inr e

theorem angle_ok : ∀ d ∈ "angle".toList, d.toLower = d ∧ d.toUpper.toLower = d := by decide
theorem minimum_ok : ∀ d ∈ "minimum".toList, d.toLower = d ∧ d.toUpper.toLower = d := by decide

theorem int_digits (n : Nat) : strIsInt (Nat.toDigits 10 n) = true ∧ pyInt (Nat.toDigits 10 n) = n :=
  ⟨strIsInt_showInt (n : Int), pyInt_showInt (n : Int)⟩

/-- the lines of the file -/
theorem getD_lines (l0 l1 : Str) (hs rest : List Str) (k : Nat) (hk : k < hs.length) :
    ([l0, l1] ++ hs ++ rest).getD (k + 2) [] = hs.getD k [] := by
  simp [List.getD_eq_getElem?_getD, List.getElem?_append_left hk]

theorem ext_false (l0 l1 : Str) (rest : List Str) (c : Char) (t : Str) (h : l0 = c :: t) (hc : c ≠ '!') :
    isExtPtfm (l0 :: l1 :: rest) = .ok false := by
  subst h
  unfold isExtPtfm
  split
  · rfl
  · simp [hc]

theorem detect (n : Nat) (l0 l1 : Str) (hs rest : List Str) (h : Header n hs) :
    isAD14 ([l0, l1] ++ hs ++ rest) = true := by
  obtain ⟨r, hr⟩ := h.num
  obtain ⟨a, ha, hac⟩ := h.angle
  obtain ⟨b, hb, hbc⟩ := h.minimum
  have e2 := getD_lines l0 l1 hs rest 0 (by rw [h.len]; omega)
  have e3 := getD_lines l0 l1 hs rest 1 (by rw [h.len]; omega)
  have e12 := getD_lines l0 l1 hs rest 10 (by rw [h.len]; omega)
  have e13 := getD_lines l0 l1 hs rest 11 (by rw [h.len]; omega)
  simp only [Nat.zero_add, Nat.reduceAdd] at e2 e3 e12 e13
  unfold isAD14
  rw [if_neg (by simp [h.len])]
  rw [e2, e3, e12, e13, hr]
  simp only
  rw [(int_digits n).1, (int_digits n).2]
  simp only [Bool.not_true, Bool.false_eq_true, if_false]
  rw [if_neg (by omega), if_neg (by have := h.ids; simp only [Int.toNat_natCast]; omega)]
  simp only [Int.toNat_natCast]
  rw [ha, hb]
  simp only
  rw [cased_lower a _ hac angle_ok, cased_lower b _ hbc minimum_ok]
  decide

theorem mapM_head (N : Num) (hs : List Str) (vals : List (N.F × List Str)) (h : List.Forall₂ (HeadLine N) hs vals) :
    hs.mapM (ad14Value N) = .ok (vals.map headItem) := by
  induction h with
  | nil => rfl
  | @cons l v hs vals hl _ ih =>
    obtain ⟨w, hw, hp⟩ := hl
    have : ad14Value N l = .ok (headItem v) := by
      unfold ad14Value
      rw [hw]; simp only
      rw [hp]; rfl
    rw [List.mapM_cons, this, ih]
    rfl

theorem mapM_parse (N : Num) (ws : List Str) (row : List N.F)
    (h : List.Forall₂ (fun w x => N.parse w = some x) ws row) : ws.mapM N.parse = some row := by
  induction h with
  | nil => rfl
  | cons hw _ ih => rw [List.mapM_cons, hw, ih]; rfl

theorem rows_ok (N : Num) (rl : List Str) (rows : List (List N.F)) (rest : List Str) (w : Nat)
    (h : List.Forall₂ (RowLine N) rl rows) (hne : rows ≠ []) (hw : ∀ r ∈ rows, r.length = w) (hw0 : 0 < w)
    (hrest : ∀ b r, rest = b :: r → words b = []) :
    ad14Rows N (rl ++ rest) = .ok rows := by
  have h1 : (rl ++ rest).takeWhile (fun l => !(words l).isEmpty) = rl := by
    have hrl : ∀ l ∈ rl, (!(words l).isEmpty) = true := by
      intro l hl
      have hex : ∃ row ∈ rows, RowLine N l row := by
        obtain ⟨hlen, hall⟩ := List.forall₂_iff_get.1 h
        obtain ⟨i, hi, e⟩ := List.mem_iff_getElem.1 hl
        refine ⟨rows[i]'(by omega), List.getElem_mem _, ?_⟩
        have := hall i hi (by omega)
        simpa [e] using this
      obtain ⟨row, hr, hlr⟩ := hex
      have := hlr.length_eq
      rw [hw row hr] at this
      cases hwl : words l with
      | nil => rw [hwl] at this; simp at this; omega
      | cons a b => rfl
    rw [List.takeWhile_append_of_pos hrl]
    cases rest with
    | nil => simp
    | cons b r => rw [List.takeWhile_cons_of_neg (by rw [hrest b r rfl]; decide)]; simp
  have h2 : rl.mapM (fun l => (words l).mapM N.parse) = some rows := by
    clear h1 hne hw
    induction h with
    | nil => rfl
    | cons hl _ ih => rw [List.mapM_cons, mapM_parse N _ _ hl, ih]; rfl
  unfold ad14Rows
  rw [h1, h2]
  cases rows with
  | nil => simp at hne
  | cons r rs =>
    simp only
    rw [if_pos]
    rw [List.all_eq_true]
    intro q hq
    rw [beq_iff_eq, hw q (by simp [hq]), hw r (by simp)]

theorem flat_get (a b c : Str → Str) (ids : List Str) (k : Nat) (hk : k < ids.length) :
    (ids.flatMap (fun l => [a l, b l, c l]))[3 * k]? = some (a ids[k]) ∧
    (ids.flatMap (fun l => [a l, b l, c l]))[3 * k + 1]? = some (b ids[k]) ∧
    (ids.flatMap (fun l => [a l, b l, c l]))[3 * k + 2]? = some (c ids[k]) := by
  induction ids generalizing k with
  | nil => simp at hk
  | cons i ids ih =>
    cases k with
    | zero => simp
    | succ k =>
      have := ih k (by simpa using hk)
      rw [List.flatMap_cons]
      have e (j : Nat) : 3 * (k + 1) + j = (3 * k + j) + 3 := by omega
      have e0 : 3 * (k + 1) = (3 * k) + 3 := by omega
      rw [e 1, e 2, e0]
      simpa using this

theorem flat_get2 (a b : Str → Str) (ids : List Str) (k : Nat) (hk : k < ids.length) :
    (ids.flatMap (fun l => [a l, b l]))[2 * k]? = some (a ids[k]) ∧
    (ids.flatMap (fun l => [a l, b l]))[2 * k + 1]? = some (b ids[k]) := by
  induction ids generalizing k with
  | nil => simp at hk
  | cons i ids ih =>
    cases k with
    | zero => simp
    | succ k =>
      have := ih k (by simpa using hk)
      rw [List.flatMap_cons]
      have e (j : Nat) : 2 * (k + 1) + j = (2 * k + j) + 2 := by omega
      have e0 : 2 * (k + 1) = (2 * k) + 2 := by omega
      rw [e 1, e0]
      simpa using this

theorem flat_len (f : Str → List Str) (m : Nat) (ids : List Str) (h : ∀ i, (f i).length = m) :
    (ids.flatMap f).length = m * ids.length := by
  induction ids with
  | nil => simp
  | cons i ids ih => rw [List.flatMap_cons, List.length_append, ih, h, List.length_cons, Nat.mul_succ]; omega

theorem columns_ok (n : Nat) (hs : List Str) (h : n < (words (hs.getD 1 [])).length) (w : Nat) :
    Columns n hs w (ad14Names (if n = 1 then [[]] else (words (hs.getD 1 [])).take n) n w).1
      (ad14Names (if n = 1 then [[]] else (words (hs.getD 1 [])).take n) n w).2 := by
  have hlen : (if n = 1 then [[]] else (words (hs.getD 1 [])).take n).length = n := by
    split
    · simp [*]
    · rw [List.length_take]; omega
  have hget : ∀ k (hk : k < (if n = 1 then [[]] else (words (hs.getD 1 [])).take n).length),
      (if n = 1 then [[]] else (words (hs.getD 1 [])).take n)[k] = tableId n hs k := by
    intro k hk
    unfold tableId
    by_cases h1 : n = 1
    · subst h1
      have : k = 0 := by rw [hlen] at hk; omega
      subst this; rfl
    · have hk' := hk
      rw [hlen] at hk'
      simp only [h1, if_false]
      rw [List.getElem_take]
      generalize words (hs.getD 1 []) = ws at *
      have hkw : k < ws.length := by omega
      simp [hkw]
  generalize (if n = 1 then [[]] else (words (hs.getD 1 [])).take n) = ids at hlen hget
  unfold Columns ad14Names
  by_cases h3 : w = 1 + n * 3
  · rw [if_pos h3]
    refine ⟨?_, fun _ => ⟨rfl, ?_, rfl⟩, fun e => absurd (by omega) e, fun e => absurd (by omega) e⟩
    · rw [List.length_cons, flat_len _ 3 _ (fun _ => rfl), hlen]; omega
    · intro k hk
      have := flat_get (fun l => "Cl".toList ++ l) (fun l => "Cd".toList ++ l) (fun l => "Cm".toList ++ l) ids k
        (by rw [hlen]; exact hk)
      rw [hget k (by rw [hlen]; exact hk)] at this
      have e (j : Nat) : 1 + 3 * k + j = (3 * k + j) + 1 := by omega
      have e0 : 1 + 3 * k = 3 * k + 1 := by omega
      rw [e 1, e 2, e0]
      simp only [List.getElem?_cons_succ]
      exact this
  · rw [if_neg h3]
    by_cases h2 : w = 1 + n * 2
    · rw [if_pos h2]
      refine ⟨?_, fun e => absurd (by omega) h3, fun _ _ => ⟨rfl, ?_, rfl⟩, fun _ e => absurd (by omega) e⟩
      · rw [List.length_cons, flat_len _ 2 _ (fun _ => rfl), hlen]; omega
      · intro k hk
        have := flat_get2 (fun l => "Cl".toList ++ l) (fun l => "Cd".toList ++ l) ids k (by rw [hlen]; exact hk)
        rw [hget k (by rw [hlen]; exact hk)] at this
        have e (j : Nat) : 1 + 2 * k + j = (2 * k + j) + 1 := by omega
        have e0 : 1 + 2 * k = 2 * k + 1 := by omega
        rw [e 1, e0]
        simp only [List.getElem?_cons_succ]
        exact this
    · rw [if_neg h2]
      refine ⟨by simp, fun e => absurd (by omega) h3, fun _ e => absurd (by omega) h2, fun _ _ => ⟨rfl, ?_⟩⟩
      intro j hj
      simp [hj]

/-! ### the theorems -/

/-- **C91.** An AeroDyn 14 polar: two lines of title, 12 header lines, then lines of as many
numbers each up to the end or a blank line.  It is read as: the two titles, the number of each
header line under the words that follow it, and one array `Polar` of all the numbers, row by row,
whose columns are named after the coefficients and the tables. -/
theorem C91 (N : Num) (fuel n w : Nat) (l0 l1 : Str) (hs rl rest : List Str) (vals : List (N.F × List Str))
    (rows : List (List N.F))
    (h0 : ∃ c t, l0 = c :: t ∧ c ≠ '!') (hh : Header n hs) (hv : List.Forall₂ (HeadLine N) hs vals)
    (hr : List.Forall₂ (RowLine N) rl rows) (hne : rows ≠ []) (hw : ∀ r ∈ rows, r.length = w) (hw0 : 0 < w)
    (hrest : ∀ b r, rest = b :: r → words b = []) :
    ∃ names units, Columns n hs w names units ∧
      FastRead.readLines N fuel ([l0, l1] ++ hs ++ (rl ++ rest)) = .ok ([Item.comment l0, Item.comment l1] ++
        vals.map headItem ++
        [{ label := "Polar".toList, value := .num rows, tabType := .numNoHeader, names := some names,
           units := units }]) := by
  obtain ⟨c, t, hc, hc'⟩ := h0
  refine ⟨_, _, columns_ok n hs hh.ids w, ?_⟩
  unfold FastRead.readLines
  have hext : isExtPtfm ([l0, l1] ++ hs ++ (rl ++ rest)) = .ok false := by
    rw [List.append_assoc]; exact ext_false l0 l1 _ c t hc hc'
  rw [hext]
  simp only
  rw [if_pos (detect n l0 l1 hs _ hh)]
  obtain ⟨r, hr3⟩ := hh.num
  have e2 := getD_lines l0 l1 hs (rl ++ rest) 0 (by rw [hh.len]; omega)
  have e3 := getD_lines l0 l1 hs (rl ++ rest) 1 (by rw [hh.len]; omega)
  simp only [Nat.zero_add, Nat.reduceAdd] at e2 e3
  have d2 : (([l0, l1] ++ hs ++ (rl ++ rest)).drop 2).take 12 = hs := by
    simp [hh.len.symm]
  have d14 : ([l0, l1] ++ hs ++ (rl ++ rest)).drop 14 = rl ++ rest := by
    rw [List.drop_left' (by simp [hh.len])]
  have g0 : ([l0, l1] ++ hs ++ (rl ++ rest)).getD 0 [] = l0 := rfl
  have g1 : ([l0, l1] ++ hs ++ (rl ++ rest)).getD 1 [] = l1 := rfl
  generalize [l0, l1] ++ hs ++ (rl ++ rest) = lines at *
  simp only [readAD14]
  rw [e2, hr3]
  simp only
  rw [(int_digits n).2, if_neg (by omega), d2, mapM_head N hs vals hv]
  simp only
  rw [d14, rows_ok N rl rows rest w hr hne hw hw0 hrest]
  simp only [Int.toNat_natCast]
  have hwid : (rows.headD []).length = w := by
    cases rows with
    | nil => simp at hne
    | cons r rs => exact hw r (by simp)
  rw [e3, hwid, g0, g1]

/-- the header of a polar of two tables -/
def exHead : List Str :=
  ["2 Number of airfoil tables".toList, "1.0 2.0 Table ID parameter".toList] ++
  List.replicate 8 "1.0 3.0 value".toList ++ ["0.0 1.0 Angle of attack".toList, "0.5 0.6 MINIMUM CD".toList]

theorem exHead_ok : Header 2 exHead :=
  ⟨rfl, ⟨["Number".toList, "of".toList, "airfoil".toList, "tables".toList], by decide +kernel⟩, by decide +kernel,
    ⟨"Angle".toList, by decide +kernel, lower_cased _ _ (by decide)⟩,
    ⟨"MINIMUM".toList, by decide +kernel, lower_cased _ _ (by decide)⟩⟩

/-- the numbers and words of the header -/
def exVals : List (toyN.F × List Str) :=
  exHead.map (fun l => ((toyN.parse ((words l).headD [])).getD toyN.zero, (words l).drop 1))

/-- all hypotheses of C91 hold of a polar of two tables, with angles from -180 to 180 degrees -/
example : Header 2 exHead ∧ List.Forall₂ (HeadLine toyN) exHead exVals ∧
    List.Forall₂ (RowLine toyN) ["-180.0 0.0 0.1 0.2 0.3".toList]
      [(words "-180.0 0.0 0.1 0.2 0.3".toList).map (fun t => (toyN.parse t).getD toyN.zero)] := by
  refine ⟨exHead_ok, ?_, ?_⟩
  · have h : ∀ hs : List Str, (∀ l ∈ hs, (words l) ≠ [] ∧ (toyN.parse ((words l).headD [])).isSome = true) →
        List.Forall₂ (HeadLine toyN) hs (hs.map (fun l => ((toyN.parse ((words l).headD [])).getD toyN.zero, (words l).drop 1))) := by
      intro hs hall
      induction hs with
      | nil => exact .nil
      | cons l hs ih =>
        refine .cons ?_ (ih (fun l hl => hall l (by simp [hl])))
        obtain ⟨h1, h2⟩ := hall l (by simp)
        cases hw : words l with
        | nil => exact absurd hw h1
        | cons w r =>
          rw [hw] at h2
          obtain ⟨x, hx⟩ := Option.isSome_iff_exists.1 h2
          have hx : toyN.parse w = some x := hx
          refine ⟨w, by simp [hw], ?_⟩
          show toyN.parse w = some ((toyN.parse ((words l).headD [])).getD toyN.zero)
          rw [hw, List.headD_cons, hx]; rfl
    exact h exHead (by decide +kernel)
  · refine .cons ?_ .nil
    have h : ∀ ws : List Str, (∀ t ∈ ws, (toyN.parse t).isSome = true) →
        List.Forall₂ (fun w x => toyN.parse w = some x) ws (ws.map (fun t => (toyN.parse t).getD toyN.zero)) := by
      intro ws hall
      induction ws with
      | nil => exact .nil
      | cons t ws ih =>
        refine .cons ?_ (ih (fun t ht => hall t (by simp [ht])))
        obtain ⟨x, hx⟩ := Option.isSome_iff_exists.1 (hall t (by simp))
        show toyN.parse t = some ((toyN.parse t).getD toyN.zero)
        rw [hx]; rfl
    exact h _ (by decide +kernel)

/-- **C91 (detection).** Nothing else is taken for such a polar: a file that is has at least 14
lines, its third line starts with an integer, and unless that one is negative, the words of the
lines 13 and 14 after that many values are `angle` and `minimum`. -/
theorem C91_detect (lines : List Str) (h : isAD14 lines = true) :
    14 ≤ lines.length ∧ ∃ w r, words (lines.getD 2 []) = w :: r ∧ strIsInt w = true ∧
      (pyInt w < 0 ∨ ∃ n : Nat, pyInt w = n ∧ n < (words (lines.getD 3 [])).length ∧
        (∃ a, (words (lines.getD 12 []))[n]? = some a ∧ Cased a "angle".toList) ∧
        ∃ b, (words (lines.getD 13 []))[n]? = some b ∧ Cased b "minimum".toList) := by
  unfold isAD14 at h
  split at h
  · simp at h
  · next hl =>
    refine ⟨by omega, ?_⟩
    split at h
    · simp at h
    · next w r hw =>
      refine ⟨w, r, hw, ?_⟩
      split at h
      · simp at h
      · next hi =>
        refine ⟨by simpa using hi, ?_⟩
        extract_lets nT at h
        by_cases hneg : nT < 0
        · exact .inl hneg
        · right
          refine ⟨nT.toNat, by show nT = _; omega, ?_⟩
          rw [if_neg hneg] at h
          split at h
          · simp at h
          · next hlen =>
            refine ⟨by omega, ?_⟩
            split at h
            · next a b ha hb =>
              rw [Bool.and_eq_true, beq_iff_eq, beq_iff_eq] at h
              exact ⟨⟨a, ha, lower_cased a _ h.1⟩, b, hb, lower_cased b _ h.2⟩
            · simp at h

example : isAD14 ad14Lines = true := by decide +kernel

end Verif.FastAD14
