import Verif.Props.Csv
/-!
# C72 layout of a CSV file given by the user; more on C50 (quoting) and C51 (names in the header)
-/
namespace Verif.Csv
open Verif.Py

/-! ### C51: names in the header -/

theorem headerNames_find (T : Txt) (s : Sep) (hs' : SepOk s) (c : Char) (n m : Nat) (a : List Str) (h : Str) (b : List Str)
    (ha : ∀ x ∈ a, (fields s ((strip x).drop 1)).length ≠ n ∨ m ≤ ((fields s ((strip x).drop 1)).filter T.isFloat).length)
    (hh : (fields s ((strip h).drop 1)).length = n) (hf : ((fields s ((strip h).drop 1)).filter T.isFloat).length < m) :
    headerNames T (some s) (some c) n m ((a ++ h :: b).map strip) = some (fields s ((strip h).drop 1)) := by
  have e : ∀ x : Str, split (some s) (some x) = fields s x := by
    intro x
    cases s with
    | ws => simp only [split, fields, words_strip]
    | ch c => simp only [split, fields]
    | empty => exact absurd rfl hs'.1
  have hn : ∀ f : List Str, nFloat T f = (f.filter T.isFloat).length := fun f => List.countP_eq_length_filter
  induction a with
  | nil =>
    rw [List.nil_append, List.map_cons, headerNames]
    simp only [e, hn]
    rw [if_pos ⟨hh, by omega⟩]
  | cons x a ih =>
    rw [List.cons_append, List.map_cons, headerNames]
    simp only [e, hn]
    rw [if_neg (by
      rintro ⟨h1, h2⟩
      rcases ha x (by simp) with h' | h'
      · exact h' h1
      · omega)]
    exact ih (fun y hy => ha y (by simp [hy]))

/-- **C51**, names in a comment: if the first data line is not mostly words, the names are the
fields of the first comment line that has as many fields, not all of them numbers; every line of
data is a row.  (A comment that only looks like that is taken as well, see `C51_header_fails`.) -/
theorem C51_header_partial (T : Txt) (s : Sep) (hs' : SepOk s) (c : Char) (a : List Str) (h : Str) (b : List Str) (l0 : Str)
    (ls : List Str) (H : Headed T c (a ++ h :: b) l0) (hw : ¬ MostlyWords T (fields s l0))
    (ha : ∀ x ∈ a, (fields s ((strip x).drop 1)).length ≠ (fields s l0).length ∨ ∀ y ∈ fields s ((strip x).drop 1), T.isFloat y = true)
    (hh : (fields s ((strip h).drop 1)).length = (fields s l0).length)
    (hf : ∃ y ∈ fields s ((strip h).drop 1), T.isFloat y = false)
    (d : Str) (ds : List Str) (hb : body (some c) (l0 :: ls) = d :: ds) (hq : ∀ l ∈ d :: ds, '"' ∉ l)
    (hlen : ∀ l ∈ ds, (cells (dsep s) l).length ≤ (cells (dsep s) d).length) :
    ∃ o, read T { sep := some s } ((a ++ h :: b) ++ l0 :: ls) = .ok o ∧
      o.columns = finalNames (fields s ((strip h).drop 1)) (cells (dsep s) d).length ∧
      o.data = table (dsep s) (cells (dsep s) d).length (d :: ds) := by
  have hn : isNames T (fields s l0) = false := by
    rw [← Bool.not_eq_true, isNames_iff]; exact hw
  have hne : a ++ h :: b ≠ [] := by simp
  have hm : mark c (a ++ h :: b) = some c := if_neg hne
  have hfe : fields s ((strip h).drop 1) ≠ [] := by
    obtain ⟨y, hy, _⟩ := hf
    exact List.ne_nil_of_mem hy
  have hlt : ((fields s ((strip h).drop 1)).filter T.isFloat).length < (fields s l0).length := by
    obtain ⟨y, hy, hy'⟩ := hf
    rw [← hh]
    refine Nat.lt_of_le_of_ne (List.length_filter_le _ _) (fun e => ?_)
    have := (List.length_filter_eq_length_iff.1 e) y hy
    rw [hy'] at this; exact nomatch this
  have ha' : ∀ x ∈ a, (fields s ((strip x).drop 1)).length ≠ (fields s l0).length ∨
      (fields s l0).length ≤ ((fields s ((strip x).drop 1)).filter T.isFloat).length := by
    intro x hx
    by_cases e : (fields s ((strip x).drop 1)).length = (fields s l0).length
    · refine .inr ?_
      rcases ha x hx with h' | h'
      · exact absurd e h'
      · rw [List.filter_eq_self.2 h', e]; exact Nat.le_refl _
    · exact .inl e
  have hnames : namesFromData T { sep := some s, header := (a ++ h :: b).map strip, commentChar := some c }
      ((a ++ h :: b) ++ l0 :: ls) (a ++ h :: b).length
      = .ok ({ sep := some s, header := (a ++ h :: b).map strip, commentChar := some c,
               colNames := fields s ((strip h).drop 1) }, (a ++ h :: b).length) := by
    rw [namesFromData]
    simp only [readline_nth, split_fields s hs', hn, Bool.false_eq_true, if_false]
    rw [if_pos (by simp; omega), headerNames_find T s hs' c _ _ a h b ha' hh hlt]
  have hread : read T { sep := some s } ((a ++ h :: b) ++ l0 :: ls) =
      readData { sep := some s, header := (a ++ h :: b).map strip, commentChar := some c,
                 colNames := fields s ((strip h).drop 1) } ((a ++ h :: b) ++ l0 :: ls) (a ++ h :: b).length := by
    rw [read]
    simp only [safe_ok s hs', excluded_spec T c _ l0 _ H, readHeader_spec T c _ l0 _ _ H, List.length_map, detectSep, readNames,
      List.length_nil, gt_iff_lt, Nat.lt_irrefl, if_false, Bool.not_true, Bool.false_eq_true, hm, hnames]
  rw [hread, readData]
  simp only [tab_ok]
  rw [readCsv_spec (dsep s) _ (some c) (a ++ h :: b) (l0 :: ls) d ds ?_ ?_ hb hq hlen]
  · refine ⟨_, rfl, ?_, rfl⟩
    simp only [finalNames]
    by_cases hl : (fields s ((strip h).drop 1)).length = (cells (dsep s) d).length
    · rw [if_neg (by
        rintro (h' | h')
        · exact hfe (List.eq_nil_of_length_eq_zero h')
        · exact h' hl), if_pos hl]
    · rw [if_pos (.inr hl), if_neg hl, List.map_map]
      exact List.map_congr_left (fun i _ => strip_genName i)
  · intro k hk
    simp only [skips, hk, decide_true, Bool.true_or]
  · intro k hk
    simp [skips]; simp at hk; omega

/-- a comment that is not names, one of numbers, then the names -/
example : (read exT { sep := some (.ch ',') } (exLines ["# by me", "# 7, 8", "# t, a", "1,2", "3,4"])).map (fun o => (o.columns, o.data)) =
    .ok (exLines ["t", "a"], [[some ['1'], some ['2']], [some ['3'], some ['4']]]) := by decide +kernel

example : ¬ MostlyWords exT (fields (.ch ',') "1,2".toList) ∧
    (∀ y ∈ fields (.ch ',') ((strip "# 7, 8".toList).drop 1), exT.isFloat y = true) ∧
    (fields (.ch ',') ((strip "# t, a".toList).drop 1)).length = (fields (.ch ',') "1,2".toList).length ∧
    (∃ y ∈ fields (.ch ',') ((strip "# t, a".toList).drop 1), exT.isFloat y = false) := by
  refine ⟨?_, by decide +kernel, by decide +kernel, by decide +kernel⟩
  rw [← isNames_iff]; decide +kernel

/-! ### C72: comment lines and names given by the user -/

/-- C72 fails: a comment line further down makes the first line of the file disappear from the data -/
theorem C72_fails :
    (read exT { sep := some (.ch ','), commentLines := [2], colNames := exLines ["t", "a"] }
      (exLines ["1,2", "3,4", "remark, see below", "5,6"])).map (fun o => (o.header, o.columns, o.data)) =
    .ok (exLines ["remark, see below"], exLines ["t", "a"], [[some ['3'], some ['4']], [some ['5'], some ['6']]]) := by decide +kernel

/-- **C72**, comments first: with `commentLines` naming the first lines of the file, in any order
and possibly repeated, and `colNamesLine` the line after them, the header is these lines, the names
are the fields of that line and the rows are all lines after it.
(Missing for the full property: comment lines elsewhere, see `C72_fails`.) -/
theorem C72_partial (T : Txt) (s : Sep) (hs' : SepOk s) (L : List Nat) (hs : List Str) (l0 : Str) (ls : List Str)
    (hL : ∀ i, i ∈ L ↔ i < hs.length) (hne : hs ≠ [])
    (hcsv : ∀ l, hs.head? = some l → ∀ w0 w1 r, words l = w0 :: w1 :: r → ¬ (T.isInt w0 = true ∧ T.isAlpha w1 = true))
    (hf : fields s l0 ≠ [])
    (d : Str) (ds : List Str) (hb : body none ls = d :: ds) (hq : ∀ l ∈ d :: ds, '"' ∉ l)
    (hlen : ∀ l ∈ ds, (cells (dsep s) l).length ≤ (cells (dsep s) d).length) :
    ∃ o, read T { sep := some s, commentLines := L, colNamesLine := some hs.length } (hs ++ l0 :: ls) = .ok o ∧
      o.header = hs.map strip ∧
      o.columns = finalNames (fields s l0) (cells (dsep s) d).length ∧
      o.data = table (dsep s) (cells (dsep s) d).length (d :: ds) := by
  have hex : excluded T (hs ++ l0 :: ls) = .ok false := by
    cases hs with
    | nil => exact absurd rfl hne
    | cons h hs =>
      have e : readline (h :: hs ++ l0 :: ls) 0 = some (strip h) := by simp [readline]
      rw [excluded, e]
      simp only [words_strip]
      have := hcsv h rfl
      cases hw : words h with
      | nil => rfl
      | cons w0 r =>
        cases r with
        | nil => rfl
        | cons w1 r =>
          have h := this w0 w1 r hw
          simp only [Except.ok.injEq]
          cases h0 : T.isInt w0 <;> cases h1 : T.isAlpha w1 <;> simp_all
  have hmax : ∀ (ks : List Nat) (k : Nat), k ≤ ks.foldl max k ∧ (∀ x ∈ ks, x ≤ ks.foldl max k) ∧
      (ks.foldl max k = k ∨ ks.foldl max k ∈ ks) := by
    intro ks
    induction ks with
    | nil => intro k; simp
    | cons x ks ih =>
      intro k
      obtain ⟨h1, h2, h3⟩ := ih (max k x)
      rw [List.foldl_cons]
      refine ⟨by omega, ?_, ?_⟩
      · intro y hy
        rcases List.mem_cons.1 hy with rfl | hy
        · omega
        · exact h2 y hy
      · rcases h3 with h3 | h3
        · rcases Nat.le_total k x with h | h
          · right; rw [h3, Nat.max_eq_right h]; simp
          · left; rw [h3, Nat.max_eq_left h]
        · right; simp [h3]
  have hhead : readHeader { sep := some s, commentLines := L, colNamesLine := some hs.length } (hs ++ l0 :: ls) =
      { sep := some s, commentLines := L, colNamesLine := some hs.length, header := hs.map strip } := by
    cases L with
    | nil =>
      exfalso
      have := (hL 0).2 (List.length_pos_iff.2 hne)
      exact nomatch this
    | cons k ks =>
      simp only [readHeader]
      obtain ⟨h1, h2, h3⟩ := hmax ks k
      have hm : ks.foldl max k + 1 = hs.length := by
        have hp := List.length_pos_iff.2 hne
        have hlast := (hL (hs.length - 1)).2 (by omega)
        have hle : hs.length - 1 ≤ ks.foldl max k := by
          rcases List.mem_cons.1 hlast with h | h
          · omega
          · exact h2 _ h
        have hin : ks.foldl max k ∈ k :: ks := by
          rcases h3 with h | h
          · rw [h]; simp
          · simp [h]
        have := (hL _).1 hin
        omega
      rw [hm, List.filter_eq_self.2 (fun i hi => by simpa using (hL i).2 (List.mem_range.1 hi))]
      congr 1
      apply List.ext_getElem?
      intro i
      rw [List.getElem?_map, List.getElem?_map]
      by_cases hi : i < hs.length
      · rw [List.getElem?_range hi]
        simp only [Option.map_some, List.getElem?_append_left hi, List.getElem?_eq_getElem hi, Option.getD_some]
      · rw [List.getElem?_eq_none (by simpa using hi), List.getElem?_eq_none (by simpa using hi)]; rfl
  have hread : read T { sep := some s, commentLines := L, colNamesLine := some hs.length } (hs ++ l0 :: ls) =
      readData { sep := some s, commentLines := L, colNamesLine := some hs.length, header := hs.map strip, colNames := fields s l0 }
        (hs ++ l0 :: ls) (hs.length + 1) := by
    rw [read]
    simp only [safe_ok s hs', hex, hhead, List.length_map, detectSep, readNames, namesFromLine]
    rw [if_neg (by omega)]
    simp only [readline_nth, split_fields s hs', Int.toNat_natCast]
    rw [Nat.max_eq_right (by omega)]
  rw [hread, readData]
  simp only [tab_ok]
  have happ : hs ++ l0 :: ls = (hs ++ [l0]) ++ ls := by simp
  rw [happ, readCsv_spec (dsep s) _ none (hs ++ [l0]) ls d ds ?_ ?_ hb hq hlen]
  · refine ⟨_, rfl, rfl, ?_, rfl⟩
    simp only [finalNames]
    by_cases hl : (fields s l0).length = (cells (dsep s) d).length
    · rw [if_neg (by
        rintro (h' | h')
        · exact hf (List.eq_nil_of_length_eq_zero h')
        · exact h' hl), if_pos hl]
    · rw [if_pos (.inr hl), if_neg hl, List.map_map]
      exact List.map_congr_left (fun i _ => strip_genName i)
  · intro k hk
    rw [List.length_append, List.length_singleton] at hk
    simp only [skips, hk, decide_true, Bool.true_or]
  · intro k hk
    rw [List.length_append, List.length_singleton] at hk
    have h1 : ¬ k ∈ L := fun h => by have := (hL k).1 h; omega
    simp [skips, h1]; omega

example : (∀ i, i ∈ [1, 0, 1] ↔ i < (exLines ["x", "y"]).length) ∧ fields (.ch ',') "t,a".toList ≠ [] := by
  refine ⟨?_, by decide +kernel⟩
  intro i; simp [exLines]; omega

example : (read exT { sep := some (.ch ','), commentLines := [1, 0, 1], colNamesLine := some 2 } (exLines ["x", "y", "t,a", "1,2", "3,4"])).map
    (fun o => (o.header, o.columns, o.data)) =
    .ok (exLines ["x", "y"], exLines ["t", "a"], [[some ['1'], some ['2']], [some ['3'], some ['4']]]) := by decide +kernel

/-- **C72**, names in a comment: with `colNamesLine = -1-j` the names are the fields of the
comment line `j` lines above the last one, without its comment mark, and every line of data is a row -/
theorem C72_negative_partial (T : Txt) (s : Sep) (hs' : SepOk s) (c : Char) (hs : List Str) (l0 : Str) (ls : List Str) (j : Nat) (h : Str)
    (H : Headed T c hs l0) (hj : j < hs.length) (hh : hs[hs.length - 1 - j]? = some h) (hf : fields s ((strip h).drop 1) ≠ [])
    (d : Str) (ds : List Str) (hb : body (some c) (l0 :: ls) = d :: ds) (hq : ∀ l ∈ d :: ds, '"' ∉ l)
    (hlen : ∀ l ∈ ds, (cells (dsep s) l).length ≤ (cells (dsep s) d).length) :
    ∃ o, read T { sep := some s, colNamesLine := some (-1 - (j : Int)) } (hs ++ l0 :: ls) = .ok o ∧
      o.header = hs.map strip ∧
      o.columns = finalNames (fields s ((strip h).drop 1)) (cells (dsep s) d).length ∧
      o.data = table (dsep s) (cells (dsep s) d).length (d :: ds) := by
  have hne : hs ≠ [] := by rintro rfl; simp at hj
  have hm : mark c hs = some c := if_neg hne
  have hhead : readHeader { sep := some s, colNamesLine := some (-1 - (j : Int)) } (hs ++ l0 :: ls) =
      { sep := some s, colNamesLine := some (-1 - (j : Int)), header := hs.map strip, commentChar := some c } := by
    have hc : commented c 100 (hs ++ l0 :: ls) = hs.map strip :=
      commented_spec c hs (l0 :: ls) 100 H.marked H.short (by
        intro l hl
        simp only [List.head?_cons, Option.some.injEq] at hl
        subst hl; exact H.ends)
    cases hs with
    | nil => exact absurd rfl hne
    | cons x hs =>
      have e : readline (x :: hs ++ l0 :: ls) 0 = some (strip x) := by simp [readline]
      simp only [readHeader, e, Option.bind_some, H.marked x (by simp)]
      rw [if_pos H.char, hc]
  have hmem : h ∈ hs := List.mem_of_getElem? hh
  have hline : readline (hs ++ l0 :: ls) ((hs.length : Int) + (-1 - (j : Int))) = some (strip h) := by
    rw [readline, if_neg (by omega)]
    have : ((hs.length : Int) + (-1 - (j : Int))).toNat = hs.length - 1 - j := by omega
    rw [this, List.getElem?_append_left (by omega), hh]; rfl
  have hsplit : split (some s) (some (strip ((strip h).drop 1))) = fields s ((strip h).drop 1) := split_fields s hs' _
  have hread : read T { sep := some s, colNamesLine := some (-1 - (j : Int)) } (hs ++ l0 :: ls) =
      readData { sep := some s, colNamesLine := some (-1 - (j : Int)), header := hs.map strip, commentChar := some c,
                 colNames := fields s ((strip h).drop 1) } (hs ++ l0 :: ls) hs.length := by
    rw [read]
    simp only [safe_ok s hs', excluded_spec T c hs l0 _ H, hhead, List.length_map, detectSep, readNames, namesFromLine]
    rw [if_pos (by omega), hline]
    simp only [strip_strip, H.marked h hmem, if_true, hsplit]
  rw [hread, readData]
  simp only [tab_ok]
  rw [readCsv_spec (dsep s) _ (some c) hs (l0 :: ls) d ds ?_ ?_ hb hq hlen]
  · refine ⟨_, rfl, rfl, ?_, rfl⟩
    simp only [finalNames]
    by_cases hl : (fields s ((strip h).drop 1)).length = (cells (dsep s) d).length
    · rw [if_neg (by
        rintro (h' | h')
        · exact hf (List.eq_nil_of_length_eq_zero h')
        · exact h' hl), if_pos hl]
    · rw [if_pos (.inr hl), if_neg hl, List.map_map]
      exact List.map_congr_left (fun i _ => strip_genName i)
  · intro k hk
    simp only [skips, hk, decide_true, Bool.true_or]
  · intro k hk
    simp [skips]; omega

example : (read exT { sep := some (.ch ','), colNamesLine := some (-2) } (exLines ["#  t, a ", "# (s), (m)", "1,2", "3,4"])).map
    (fun o => (o.header, o.columns, o.data)) =
    .ok (exLines ["#  t, a", "# (s), (m)"], exLines ["t", "a"], [[some ['1'], some ['2']], [some ['3'], some ['4']]]) := by decide +kernel

/-! ### C50: quoting -/

/-- reading a line of a CSV file after RFC 4180; `m` is 0 at the start of a field, 1 in a plain field, 2 in a
quoted one and 3 after a quote in a quoted one -/
def parseCsv (sep : Char) : Nat → Str → Str → List Str
  | _, acc, [] => [acc]
  | 2, acc, c :: s => if c = '"' then parseCsv sep 3 acc s else parseCsv sep 2 (acc ++ [c]) s
  | m, acc, c :: s =>
    if c = sep then acc :: parseCsv sep 0 [] s
    else if m = 0 ∧ c = '"' then parseCsv sep 2 acc s
    else if m = 3 ∧ c = '"' then parseCsv sep 2 (acc ++ [c]) s
    else parseCsv sep 1 (acc ++ [c]) s

theorem parse_quoted (sep : Char) (hsep : sep ≠ '"') (s : Str) : ∀ (acc r : Str), 
    parseCsv sep 2 acc (replaceChar '"' ['"', '"'] s ++ '"' :: r) = parseCsv sep 3 (acc ++ s) r := by
  induction s with
  | nil => intro acc r; simp [replaceChar, parseCsv]
  | cons c s ih =>
    intro acc r
    have e : replaceChar '"' ['"', '"'] (c :: s) = (if c = '"' then ['"', '"'] else [c]) ++ replaceChar '"' ['"', '"'] s := by
      simp [replaceChar]
    rw [e]
    by_cases hc : c = '"'
    · subst hc
      rw [if_pos rfl]
      simp only [List.cons_append, List.nil_append]
      rw [parseCsv, if_pos rfl, parseCsv, if_neg (fun h => hsep h.symm), if_neg (by simp), if_pos ⟨rfl, rfl⟩, ih]
      · simp
      · simp
    · rw [if_neg hc]
      simp only [List.cons_append, List.nil_append]
      rw [parseCsv, if_neg hc, ih]
      simp

theorem parse_plain (sep : Char) (s : Str) : ∀ (m : Nat) (acc r : Str), m ≤ 1 → sep ∉ s → '"' ∉ s →
    ∃ m' ≤ 1, parseCsv sep m acc (s ++ r) = parseCsv sep m' (acc ++ s) r := by
  induction s with
  | nil => intro m acc r hm _ _; exact ⟨m, hm, by simp⟩
  | cons c s ih =>
    intro m acc r hm h1 h2
    obtain ⟨m', hm', h⟩ := ih 1 (acc ++ [c]) r (by omega) (fun h => h1 (by simp [h])) (fun h => h2 (by simp [h]))
    refine ⟨m', hm', ?_⟩
    rw [List.cons_append, parseCsv, if_neg (fun e => h1 (by simp [e])), if_neg (by
      rintro ⟨_, rfl⟩; exact h2 (by simp)), if_neg (by rintro ⟨h', _⟩; omega), h]
    · simp
    · omega

theorem parse_field (sep : Char) (hsep : sep ≠ '"') (s : Str) (r : Str) :
    ∃ m, m ≠ 2 ∧ parseCsv sep 0 [] (quote sep s ++ r) = parseCsv sep m s r := by
  rw [quote]
  split
  · refine ⟨3, by omega, ?_⟩
    rw [List.cons_append, parseCsv, if_neg (fun h => hsep h.symm), if_pos ⟨rfl, rfl⟩]
    · have := parse_quoted sep hsep s [] r
      rw [List.nil_append] at this
      rw [← this]; simp
    · simp
  · rename_i h
    simp only [not_or] at h
    obtain ⟨m, hm, h'⟩ := parse_plain sep s 0 [] r (by omega) h.1 h.2.1
    exact ⟨m, by omega, by simpa using h'⟩

/-- **C50**, text of cells: whatever the cells contain, separators, quotes and line ends
included, the line written for a row gives them back to a reader that follows RFC 4180.
(Missing for the full property: `CSVFile` cuts the line of names at every separator, see
`C50_names_fails`; reading quoted cells with pandas is not modelled.) -/
theorem C50_quoting_partial (sep : Char) (hsep : sep ≠ '"') (r : List Str) (hr : r ≠ []) :
    (toCsv sep [r]).map (parseCsv sep 0 []) = [r] := by
  show [parseCsv sep 0 [] (joinWith [sep] (r.map (quote sep)))] = [r]
  congr 1
  induction r with
  | nil => exact absurd rfl hr
  | cons s r ih =>
    cases r with
    | nil =>
      obtain ⟨m, _, h⟩ := parse_field sep hsep s []
      rw [List.append_nil] at h
      show parseCsv sep 0 [] (quote sep s) = [s]
      rw [h, parseCsv]
    | cons t r =>
      obtain ⟨m, hm, h⟩ := parse_field sep hsep s (sep :: joinWith [sep] ((t :: r).map (quote sep)))
      have e : joinWith [sep] ((s :: t :: r).map (quote sep)) = quote sep s ++ sep :: joinWith [sep] ((t :: r).map (quote sep)) := by
        simp [joinWith]
      rw [e, h, parseCsv, if_pos rfl, ih (by simp)]
      exact hm

example : toCsv ',' [["a,b".toList, "say \"x\"".toList, "plain".toList]] = ["\"a,b\",\"say \"\"x\"\"\",plain".toList] := by decide +kernel

end Verif.Csv
