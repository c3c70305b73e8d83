import Verif.Model.FastTable
import Verif.Lemmas.Str
/-!
# C15, C55: tables of OpenFAST input files
-/
namespace Verif.FastTable
open Verif.Py Verif.FastLine

theorem mapM_some {F : Type} (conv : Str → Option F) (u : List Str) (r : List F)
    (h : u.mapM conv = some r) : u.map conv = r.map some := by
  induction u generalizing r with
  | nil => simp at h; subst h; rfl
  | cons a u ih =>
    rw [List.mapM_cons] at h
    cases ha : conv a with
    | none => rw [ha] at h; simp at h
    | some x =>
      rw [ha] at h
      cases hu : u.mapM conv with
      | none => rw [hu] at h; simp at h
      | some xs =>
        rw [hu] at h
        simp at h
        subst h
        simp [ha, ih xs hu]

theorem numRow_ok {F : Type} (conv : Str → Option F) (w : Nat) (v : List Str) (r : List F)
    (h : numRow conv w v = .ok r) : r.length = w ∧ w ≤ v.length ∧ (v.take w).map conv = r.map some := by
  unfold numRow at h
  split at h
  · simp at h
  · next r' hr =>
    split at h
    · simp at h
    · next hl =>
      injection h with h
      subst h
      have hm := mapM_some conv _ _ hr
      have hlen := congrArg List.length hm
      have h2 : (v.take w).length ≤ w := by simp; omega
      simp at hlen
      exact ⟨by omega, by omega, hm⟩

theorem numRows_ok {F : Type} (conv : Str → Option F) (w : Nat) (ls : List Str) (rows : List (List F))
    (h : numRows conv w ls = .ok rows) : rows.length = ls.length ∧
      ∀ (k : Nat) (l : Str), ls[k]? = some l → ∃ r, rows[k]? = some r ∧ r.length = w ∧
        w ≤ (numTokens l).length ∧ ((numTokens l).take w).map conv = r.map some := by
  induction ls generalizing rows with
  | nil => simp [numRows] at h; subst h; simp
  | cons l ls ih =>
    rw [numRows] at h
    split at h
    · simp at h
    · next r hr =>
      split at h
      · simp at h
      · next rs hrs =>
        injection h with h
        subst h
        obtain ⟨h1, h2⟩ := ih rs hrs
        refine ⟨by simp [h1], ?_⟩
        intro k l' hk
        cases k with
        | zero => simp at hk; subst hk; exact ⟨r, rfl, numRow_ok conv w _ r hr⟩
        | succ k => simpa using h2 k l' (by simpa using hk)

theorem mixRow_len (w : Nat) (v : List Str) : (mixRow w v).length = w := by
  simp [mixRow]; omega

theorem mixRows_ok (w : Nat) (ls : List Str) (rows : List (List (Option Str)))
    (h : mixRows w ls = .ok rows) : rows.length = ls.length ∧
      ∀ (k : Nat) (l : Str), ls[k]? = some l → rows[k]? = some (mixRow w (mixTokens l)) := by
  induction ls generalizing rows with
  | nil => simp [mixRows] at h; subst h; simp
  | cons l ls ih =>
    rw [mixRows] at h
    split at h
    · simp at h
    · split at h
      · simp at h
      · next rs hrs =>
        injection h with h
        subst h
        obtain ⟨h1, h2⟩ := ih rs hrs
        refine ⟨by simp [h1], ?_⟩
        intro k l' hk
        cases k with
        | zero => simp at hk; subst hk; rfl
        | succ k => simpa using h2 k l' (by simpa using hk)

/-- the number of values of the first data row: the width of the table. -/
def width (tokens : Str → List Str) (lines : List Str) (skip : Nat) : Nat :=
  match lines[skip]? with
  | some l => (tokens l).length
  | none => 0

/-- what `parseNum` returns on success. -/
theorem parseNum_ok {F : Type} (conv : Str → Option F) (numCount : Str → Nat) (lines : List Str)
    (n nH nO : Nat) (t : Table F) (h : parseNum conv numCount lines n nH nO = .ok t) :
    lines.length = n + nH + nO ∧
    numRows conv (width numTokens lines (nH + nO)) (lines.drop (nH + nO)) = .ok t.rows := by
  unfold parseNum at h
  split at h
  · simp at h
  · next hlen =>
    refine ⟨by simpa using hlen, ?_⟩
    split at h
    · simp at h
    · have hw : width numTokens lines (nH + nO) =
          match lines.drop (nH + nO) with
          | l :: _ => (numTokens l).length
          | [] => 0 := by
        unfold width
        rw [← List.head?_drop]
        cases lines.drop (nH + nO) <;> rfl
      split at h
      · next hd =>
        injection h with h; subst h
        rw [hd]; rfl
      · next l ls hd =>
        rw [hw, hd]
        simp only at h ⊢
        split at h
        · simp at h
        · split at h
          · simp at h
          · split at h
            · simp at h
            · next rows hrows =>
              injection h with h; subst h
              exact hrows

/-- what `parseMix` returns on success. -/
theorem parseMix_ok (lines : List Str) (n nH nO : Nat) (t : Table (Option Str))
    (h : parseMix lines n nH nO = .ok t) :
    lines.length = n + nH + nO ∧
    mixRows (width mixTokens lines (nH + nO)) (lines.drop (nH + nO)) = .ok t.rows := by
  unfold parseMix at h
  split at h
  · simp at h
  · next hlen =>
    refine ⟨by simpa using hlen, ?_⟩
    split at h
    · simp at h
    · have hw : width mixTokens lines (nH + nO) =
          match lines.drop (nH + nO) with
          | l :: _ => (mixTokens l).length
          | [] => 0 := by
        unfold width
        rw [← List.head?_drop]
        cases lines.drop (nH + nO) <;> rfl
      simp only at h
      split at h
      · next hd =>
        injection h with h; subst h
        rw [hd]; rfl
      · next l ls hd =>
        rw [hw, hd]
        simp only at h ⊢
        split at h
        · simp at h
        · split at h
          · simp at h
          · split at h
            · simp at h
            · next rows hrows =>
              injection h with h; subst h
              exact hrows

/-- **C15 (numeric tables).** A table declared with `n` rows is read as exactly
`n` rows of the same width, the `k`-th being the first values of the `k`-th data
line, each converted; otherwise an exception is raised.  Missing: a row longer
than the first one is cut without error (`C15_fails`). -/
theorem C15_num_partial {F : Type} (conv : Str → Option F) (numCount : Str → Nat) (lines : List Str)
    (n nH nO : Nat) (t : Table F) (h : parseNum conv numCount lines n nH nO = .ok t) :
    t.rows.length = n ∧ lines.length = n + nH + nO ∧
    ∀ (k : Nat) (l : Str), lines[nH + nO + k]? = some l → ∃ r, t.rows[k]? = some r ∧
      r.length = width numTokens lines (nH + nO) ∧ r.length ≤ (numTokens l).length ∧
      ((numTokens l).take r.length).map conv = r.map some := by
  obtain ⟨h1, h2⟩ := parseNum_ok conv numCount lines n nH nO t h
  obtain ⟨h3, h4⟩ := numRows_ok conv _ _ _ h2
  refine ⟨by rw [h3]; simp; omega, h1, ?_⟩
  intro k l hk
  obtain ⟨r, hr, hrl, hle, hv⟩ := h4 k l (by rw [List.getElem?_drop]; exact hk)
  exact ⟨r, hr, hrl, by omega, by rw [hrl]; exact hv⟩

/-- **C15 (values).** When the rows all have the same number of values, no value
is dropped: each row of the table is the whole line. -/
theorem C15_values_partial {F : Type} (conv : Str → Option F) (numCount : Str → Nat) (lines : List Str)
    (n nH nO : Nat) (t : Table F) (h : parseNum conv numCount lines n nH nO = .ok t)
    (k : Nat) (l : Str) (hk : lines[nH + nO + k]? = some l)
    (hw : (numTokens l).length = width numTokens lines (nH + nO)) :
    ∃ r, t.rows[k]? = some r ∧ (numTokens l).map conv = r.map some := by
  obtain ⟨_, _, h3⟩ := C15_num_partial conv numCount lines n nH nO t h
  obtain ⟨r, hr, hrl, _, hv⟩ := h3 k l hk
  refine ⟨r, hr, ?_⟩
  rw [← hv, hrl, ← hw, List.take_length]

/-- **C15 (mixed tables).** Exactly `n` rows of the same width, in order; the
`k`-th row starts with the values of the `k`-th line (short rows are completed
with zeros, long rows are cut). -/
theorem C15_mix_partial (lines : List Str) (n nH nO : Nat) (t : Table (Option Str))
    (h : parseMix lines n nH nO = .ok t) :
    t.rows.length = n ∧ lines.length = n + nH + nO ∧
    ∀ (k : Nat) (l : Str), lines[nH + nO + k]? = some l → ∃ r, t.rows[k]? = some r ∧
      r.length = width mixTokens lines (nH + nO) ∧
      ∀ (j : Nat) (x : Str), j < r.length → (mixTokens l)[j]? = some x → r[j]? = some (some x) := by
  obtain ⟨h1, h2⟩ := parseMix_ok lines n nH nO t h
  obtain ⟨h3, h4⟩ := mixRows_ok _ _ _ h2
  refine ⟨by rw [h3]; simp; omega, h1, ?_⟩
  intro k l hk
  refine ⟨_, h4 k l (by rw [List.getElem?_drop]; exact hk), mixRow_len _ _, ?_⟩
  intro j x hj hx
  rw [mixRow_len] at hj
  have hjl : j < (mixTokens l).length := (List.getElem?_eq_some_iff.1 hx).1
  unfold mixRow
  simp only
  rw [List.getElem?_append_left (by simp; omega), List.getElem?_map, List.getElem?_take_of_lt (by omega), hx]
  rfl

/-- **C15 (wrong count).** When the number of lines available is not the declared
one, an exception is raised. -/
theorem C15_count {F : Type} (conv : Str → Option F) (numCount : Str → Nat) (lines : List Str)
    (n nH nO : Nat) (h : lines.length ≠ n + nH + nO) :
    parseNum conv numCount lines n nH nO = .error .broken ∧ parseMix lines n nH nO = .error .broken := by
  unfold parseNum parseMix
  rw [if_pos h, if_pos h]
  exact ⟨rfl, rfl⟩

/-- toy conversion of a token to a number -/
def digitConv (s : Str) : Option Nat := if isDigits s then some (Nat.ofDigitChars 10 s 0) else none

/-- C15 fails on values: the fourth value of the second row disappears. -/
theorem C15_fails : ¬ (∀ (lines : List Str) (n nH nO : Nat) (t : Table Nat),
    parseNum digitConv List.length lines n nH nO = .ok t →
    ∀ (k : Nat) (l : Str) (r : List Nat), lines[nH + nO + k]? = some l → t.rows[k]? = some r →
      r.length = (numTokens l).length) := by
  intro h
  have := h ["a b c".toList, "(-) (-) (-)".toList, "1 2 3".toList, "4 5 6 7".toList] 2 2 0
    ⟨[[1, 2, 3], [4, 5, 6]], ["a".toList, "b".toList, "c".toList]⟩ rfl 1 "4 5 6 7".toList [4, 5, 6] rfl rfl
  revert this
  decide

example : parseNum digitConv List.length
    ["a b c".toList, "(-) (-) (-)".toList, "1 2 3".toList, "4 5 6 ! comment".toList] 2 2 0
    = .ok ⟨[[1, 2, 3], [4, 5, 6]], ["a".toList, "b".toList, "c".toList]⟩ := rfl

example : parseMix ["a b c".toList, "(-) (-) (-)".toList, "1 x 3".toList, "4 y".toList] 2 2 0
    = .ok ⟨[[some "1".toList, some "x".toList, some "3".toList], [some "4".toList, some "y".toList, none]],
        ["a".toList, "b".toList, "c".toList]⟩ := rfl

/-! ### C55 -/

/-- C55 fails for numeric tables: more values than names on the first row gives a
table with fewer names than columns. -/
theorem C55_fails : ¬ (∀ (lines : List Str) (n nH nO : Nat) (t : Table Nat), 1 ≤ nH →
    parseNum digitConv List.length lines n nH nO = .ok t →
    ∀ r ∈ t.rows, r.length = t.names.length) := by
  intro h
  have := h ["a b".toList, "(-) (-)".toList, "1 2 3".toList] 1 2 0 ⟨[[1, 2, 3]], ["a".toList, "b".toList]⟩
    (by decide) rfl [1, 2, 3] (by simp)
  revert this
  decide

/-- **C55 (numeric).** With a header line having at least as many names as the
first row has values, or ending by `NodeCnt`, there is one name per column. -/
theorem C55_num_partial {F : Type} (conv : Str → Option F) (numCount : Str → Nat) (lines : List Str)
    (n nH nO : Nat) (t : Table F) (h : parseNum conv numCount lines n nH nO = .ok t) (hH : 1 ≤ nH)
    (hnames : width numTokens lines (nH + nO) ≤ (headerNames (lines.getD 0 [])).length ∨
      ((headerNames (lines.getD 0 [])).getLast?.map lower) = some "nodecnt".toList) :
    ∀ r ∈ t.rows, r.length = t.names.length := by
  obtain ⟨h1, h2⟩ := parseNum_ok conv numCount lines n nH nO t h
  obtain ⟨h3, h4⟩ := numRows_ok conv _ _ _ h2
  intro r hr
  obtain ⟨k, hk⟩ := List.mem_iff_getElem?.1 hr
  have hkl : k < (lines.drop (nH + nO)).length := by
    rw [← h3]; exact (List.getElem?_eq_some_iff.1 hk).1
  obtain ⟨r', hr', hrl, _⟩ := h4 k _ (List.getElem?_eq_getElem hkl)
  rw [hk] at hr'
  injection hr' with hr'
  subst hr'
  rw [hrl]
  have hw : width numTokens lines (nH + nO) =
      match lines.drop (nH + nO) with
      | l :: _ => (numTokens l).length
      | [] => 0 := by
    unfold width
    rw [← List.head?_drop]
    cases lines.drop (nH + nO) <;> rfl
  unfold parseNum at h
  have hH0 : ¬ nH = 0 := by omega
  simp only [hH0, if_false, tableNames, extendNames] at h
  split at h
  · simp at h
  · split at h
    · next hd => rw [hd] at hkl; simp at hkl
    · next l ls hd =>
      rw [hd] at hw
      simp only at hw
      rw [hw] at hnames ⊢
      split at h
      · simp at h
      · next hne =>
        split at h
        · simp at h
        · next names1 hn1 =>
          split at h
          · simp at h
          · injection h with h; subst h
            simp only [List.length_take]
            split at hn1
            · next hc =>
              split at hn1
              · injection hn1 with hn1; subst hn1
                simp; omega
              · simp at hn1
            · next hc =>
              injection hn1 with hn1; subst hn1
              rcases hnames with hnames | hnames
              · omega
              · by_cases he : (numTokens l).length = (headerNames (lines.getD 0 [])).length
                · omega
                · exact absurd ⟨he, hnames⟩ hc

/-- **C55 (mixed).** A mixed table always has one name per column. -/
theorem C55_mix (lines : List Str) (n nH nO : Nat) (t : Table (Option Str))
    (h : parseMix lines n nH nO = .ok t) : ∀ r ∈ t.rows, r.length = t.names.length := by
  obtain ⟨h1, h2⟩ := parseMix_ok lines n nH nO t h
  obtain ⟨h3, h4⟩ := mixRows_ok _ _ _ h2
  intro r hr
  obtain ⟨k, hk⟩ := List.mem_iff_getElem?.1 hr
  have hkl : k < (lines.drop (nH + nO)).length := by
    rw [← h3]; exact (List.getElem?_eq_some_iff.1 hk).1
  have hr' := h4 k _ (List.getElem?_eq_getElem hkl)
  rw [hk] at hr'
  injection hr' with hr'
  rw [hr', mixRow_len]
  have hw : width mixTokens lines (nH + nO) =
      match lines.drop (nH + nO) with
      | l :: _ => (mixTokens l).length
      | [] => 0 := by
    unfold width
    rw [← List.head?_drop]
    cases lines.drop (nH + nO) <;> rfl
  unfold parseMix at h
  split at h
  · simp at h
  · split at h
    · simp at h
    · simp only at h
      split at h
      · next hd => rw [hd] at hkl; simp at hkl
      · next l ls hd =>
        rw [hd] at hw
        simp only at hw
        rw [hw]
        split at h
        · simp at h
        · split at h
          · simp at h
          · split at h
            · simp at h
            · injection h with h; subst h
              simp only [List.length_take]
              split
              · simp; omega
              · omega

end Verif.FastTable
