import Verif.Lemmas.Str
import Verif.Model.Csv
import Verif.Py.Dec
/-!
# C50, C51: CSV files

C51: which line gives the column names.  C50: names and rows after writing and reading.
-/
namespace Verif.Csv
open Verif.Py

/-! ### Specification -/

/-- the fields of a line -/
def fields (s : Sep) (l : Str) : List Str :=
  match s with
  | .ch c => (splitOn c (strip l)).map strip
  | _ => words l

/-- the line is mostly words: no number, or at most half numbers among more than two fields -/
def MostlyWords (T : Txt) (f : List Str) : Prop :=
  (∀ x ∈ f, T.isFloat x = false) ∨ (2 < f.length ∧ 2 * (f.filter T.isFloat).length ≤ f.length)

/-- separator of the data: a tab stands for any blanks -/
def dsep (s : Sep) : Sep := if s = .ch '\t' then .ws else s

/-- the lines with data -/
def body (c : Option Char) (ls : List Str) : List Str := (ls.map (uncomment c)).filter (fun l => strip l ≠ [])

/-- the table of these lines -/
def table (s : Sep) (n : Nat) (ls : List Str) : List (List Cell) :=
  ls.map fun l => (cells s l).map toCell ++ List.replicate (n - (cells s l).length) none

/-- separators a reader can be given -/
def SepOk (s : Sep) : Prop := s ≠ .empty ∧ s ≠ .ch ' '

instance (s : Sep) : Decidable (SepOk s) := by unfold SepOk; infer_instance

/-- a file starting with comment lines `hs` (possibly none) marked by `c` -/
structure Headed (T : Txt) (c : Char) (hs : List Str) (l0 : Str) : Prop where
  char : c ∈ commentChars
  marked : ∀ h ∈ hs, (strip h).head? = some c
  short : hs.length ≤ 100
  ends : (strip l0).head? ≠ some c
  plain : hs = [] → ∀ d, (strip l0).head? = some d → d ∉ commentChars
  /-- the first line does not start with an integer and a word -/
  csv : ∀ l, (hs ++ [l0]).head? = some l → ∀ w0 w1 r, words l = w0 :: w1 :: r → ¬ (T.isInt w0 = true ∧ T.isAlpha w1 = true)

/-- comment mark found in the file -/
def mark (c : Char) (hs : List Str) : Option Char := if hs = [] then none else some c

/-- names of the columns: those found, if they are as many as the columns -/
def finalNames (f : List Str) (n : Nat) : List Str :=
  if f.length = n then f.map strip else (List.range n).map genName

/-! ### Reading step by step -/

theorem isNames_iff (T : Txt) (f : List Str) : isNames T f = true ↔ MostlyWords T f := by
  have h0 : nFloat T f = 0 ↔ ∀ x ∈ f, T.isFloat x = false := by
    simp only [nFloat, List.countP_eq_zero, Bool.not_eq_true]
  have h1 : (f.filter T.isFloat).length = nFloat T f := List.countP_eq_length_filter.symm
  rw [MostlyWords, h1, ← h0]
  simp only [isNames, Bool.or_eq_true, beq_iff_eq, Bool.and_eq_true, decide_eq_true_eq]

theorem strip_strip (s : Str) : strip (strip s) = strip s := by
  have dw : ∀ (s : Str) (c : Char), (s.dropWhile isWs).head? = some c → isWs c = false := by
    intro s c h
    induction s with
    | nil => simp at h
    | cons x s ih =>
      rw [List.dropWhile_cons] at h
      by_cases hx : isWs x = true
      · rw [if_pos hx] at h; exact ih h
      · rw [if_neg hx] at h
        simp only [List.head?_cons, Option.some.injEq] at h
        subst h; simpa using hx
  apply stripBy_eq_self
  · intro c h
    obtain ⟨t, h1, -⟩ := rstripBy_append isWs (lstripBy isWs s)
    refine dw s c ?_
    show (lstripBy isWs s).head? = some c
    rw [h1]
    show (strip s ++ t).head? = some c
    rw [List.head?_append, h]; rfl
  · intro c h
    rw [strip, stripBy, rstripBy, List.getLast?_reverse] at h
    exact dw _ _ h

theorem split_fields (s : Sep) (h : SepOk s) (l : Str) : split (some s) (some (strip l)) = fields s l := by
  cases s with
  | ws => simp only [split, fields, strip_strip, words_strip]
  | ch c => simp only [split, fields, strip_strip]
  | empty => exact absurd rfl h.1

theorem commented_spec (c : Char) (hs : List Str) (ls : List Str) (n : Nat) (h1 : ∀ h ∈ hs, (strip h).head? = some c)
    (h2 : hs.length ≤ n) (h3 : ∀ l, ls.head? = some l → (strip l).head? ≠ some c) :
    commented c n (hs ++ ls) = hs.map strip := by
  induction hs generalizing n with
  | nil =>
    cases n with
    | zero => simp [commented]
    | succ n =>
      cases ls with
      | nil => simp [commented]
      | cons l ls =>
        rw [List.nil_append, commented, if_neg (h3 l rfl)]; rfl
  | cons h hs ih =>
    cases n with
    | zero => simp at h2
    | succ n =>
      rw [List.cons_append, commented, if_pos (h1 h (by simp)), ih n (fun x hx => h1 x (by simp [hx])) (by simpa using h2)]
      rfl

theorem readHeader_spec (T : Txt) (c : Char) (hs : List Str) (l0 : Str) (ls : List Str) (s : Option Sep) (H : Headed T c hs l0) :
    readHeader { sep := s } (hs ++ l0 :: ls) = { sep := s, header := hs.map strip, commentChar := mark c hs } := by
  have hc : commented c 100 (hs ++ l0 :: ls) = hs.map strip :=
    commented_spec c hs (l0 :: ls) 100 H.marked H.short (by
      intro l hl
      simp only [List.head?_cons, Option.some.injEq] at hl
      subst hl; exact H.ends)
  simp only [readHeader]
  cases hs with
  | nil =>
    have e : readline ([] ++ l0 :: ls) 0 = some (strip l0) := by simp [readline]
    rw [e]
    simp only [Option.bind_some]
    cases h0 : (strip l0).head? with
    | none => rfl
    | some d =>
      simp only
      rw [if_neg (H.plain rfl d h0)]; rfl
  | cons h hs =>
    have e : readline (h :: hs ++ l0 :: ls) 0 = some (strip h) := by simp [readline]
    rw [e]
    simp only [Option.bind_some, H.marked h (by simp)]
    rw [if_pos H.char, hc]; rfl

theorem excluded_spec (T : Txt) (c : Char) (hs : List Str) (l0 : Str) (ls : List Str) (H : Headed T c hs l0) :
    excluded T (hs ++ l0 :: ls) = .ok false := by
  obtain ⟨l, hl, hl'⟩ : ∃ l, (hs ++ [l0]).head? = some l ∧ readline (hs ++ l0 :: ls) 0 = some (strip l) := by
    cases hs with
    | nil => exact ⟨l0, rfl, by simp [readline]⟩
    | cons h hs => exact ⟨h, rfl, by simp [readline]⟩
  rw [excluded, hl']
  simp only [words_strip]
  have := H.csv l hl
  cases hw : words l with
  | nil => rfl
  | cons w0 r =>
    cases r with
    | nil => rfl
    | cons w1 r =>
      have h := this w0 w1 r hw
      simp only [Except.ok.injEq]
      cases h0 : T.isInt w0 <;> cases h1 : T.isAlpha w1 <;> simp_all

theorem readline_nth (hs : List Str) (l0 : Str) (ls : List Str) :
    readline (hs ++ l0 :: ls) hs.length = some (strip l0) := by simp [readline]

theorem readline_next (hs : List Str) (l0 : Str) (ls : List Str) :
    readline (hs ++ l0 :: ls) (hs.length + 1 : Nat) = ls.head?.map strip := by
  have : readline (hs ++ l0 :: ls) (hs.length + 1 : Nat) = ((hs ++ l0 :: ls)[hs.length + 1]?).map strip := by
    rw [readline, if_neg (by omega)]; rfl
  rw [this, List.getElem?_append_right (by omega), Nat.add_sub_cancel_left]
  cases ls <;> rfl

theorem dataLines_skip (skip : Nat → Bool) (c : Option Char) (a b : List Str) (i : Nat)
    (h1 : ∀ k, i ≤ k → k < i + a.length → skip k = true) (h2 : ∀ k, i + a.length ≤ k → skip k = false) :
    dataLines skip c i (a ++ b) = body c b := by
  induction a generalizing i with
  | nil =>
    rw [List.nil_append]
    induction b generalizing i with
    | nil => rfl
    | cons l b ih =>
      rw [dataLines]
      simp only
      rw [if_neg (by rw [h2 i (by simp)]; simp), ih (i + 1) (by simp; omega) (fun k hk => h2 k (by simp at hk ⊢; omega)), body, body,
        List.map_cons, List.filter_cons]
      by_cases h : strip (uncomment c l) = []
      · rw [if_pos h, if_neg (by simp [h])]
      · rw [if_neg h, if_pos (by simp [h])]
  | cons l a ih =>
    rw [List.cons_append, dataLines]
    simp only
    rw [if_pos (h1 i (by omega) (by simp))]
    exact ih (i + 1) (fun k hk hk' => h1 k (by omega) (by simp; omega)) (fun k hk => h2 k (by simp at hk ⊢; omega))

theorem readCsv_spec (sep : Sep) (skip : Nat → Bool) (c : Option Char) (a b : List Str) (d : Str) (ds : List Str)
    (h1 : ∀ k, k < a.length → skip k = true) (h2 : ∀ k, a.length ≤ k → skip k = false)
    (hb : body c b = d :: ds) (hq : ∀ l ∈ d :: ds, '"' ∉ l) (hw : ∀ l ∈ ds, (cells sep l).length ≤ (cells sep d).length) :
    readCsv sep skip c (a ++ b) = .ok ((cells sep d).length, table sep (cells sep d).length (d :: ds)) := by
  have e : dataLines skip c 0 (a ++ b) = d :: ds := by
    rw [dataLines_skip skip c a b 0 (fun k _ hk => h1 k (by omega)) (fun k hk => h2 k (by omega)), hb]
  rw [readCsv]
  simp only [e]
  have hq' : ((d :: ds).any fun l => decide ('"' ∈ l)) = false := by
    rw [List.any_eq_false]
    intro l hl
    simp [hq l hl]
  rw [hq']
  simp only [Bool.false_eq_true, if_false, List.map_cons]
  have hw' : ((ds.map (cells sep)).any fun x => decide ((cells sep d).length < x.length)) = false := by
    rw [List.any_eq_false]
    intro x hx
    obtain ⟨l, hl, rfl⟩ := List.mem_map.1 hx
    have := hw l hl
    simp; omega
  rw [hw']
  simp only [Bool.false_eq_true, if_false, table, List.map_cons, List.map_map]
  rfl

theorem safe_ok (s : Sep) (h : SepOk s) : safeSep (some s) = some s := by
  obtain ⟨h1, h2⟩ := h
  unfold safeSep
  split
  · rename_i e; injection e with e; exact absurd e h1
  · rename_i e; injection e with e; exact absurd e h2
  · rfl

theorem tab_ok (s : Sep) : tabWs (some s) = some (dsep s) := by
  unfold tabWs
  split
  · rename_i e; injection e with e; subst e; rfl
  · rename_i e
    rw [dsep, if_neg]
    rintro rfl
    exact e rfl

theorem strip_genName (i : Nat) : strip (genName i) = genName i := by
  apply strip_word
  refine ⟨by simp [genName], ?_⟩
  intro ch hch
  rcases List.mem_cons.1 hch with rfl | hch
  · decide
  · have hd : ch.isDigit = true := by
      have : ch ∈ (toString i).toList := hch
      rw [Nat.toString_eq_repr] at this
      exact Nat.isDigit_of_mem_toDigits (b := 10) (n := i) (by decide) (by decide) (by simpa [Nat.repr] using this)
    simp only [Char.isDigit, Bool.and_eq_true, decide_eq_true_eq] at hd
    have h1 : 48 ≤ ch.toNat := hd.1
    have h2 : ch.toNat ≤ 57 := hd.2
    simp only [isWs]
    simp
    omega

/-! ### C51 -/

/-- **C51**, names found: if the first data line is mostly words, its fields are the names (when
they are as many as the columns) and exactly the lines after it are the rows.
(Missing for the full property: a second line with many brackets, files of one line.) -/
theorem C51_names_partial (T : Txt) (s : Sep) (hs' : SepOk s) (c : Char) (hs : List Str) (l0 l1 : Str) (ls : List Str)
    (H : Headed T c hs l0) (hw : MostlyWords T (fields s l0)) (hf : fields s l0 ≠ [])
    (hpa : 2 * (l1.count '(' + l1.count '[') ≤ (fields s l0).length)
    (d : Str) (ds : List Str) (hb : body (mark c hs) (l1 :: ls) = d :: ds) (hq : ∀ l ∈ d :: ds, '"' ∉ l)
    (hlen : ∀ l ∈ ds, (cells (dsep s) l).length ≤ (cells (dsep s) d).length) :
    ∃ o, read T { sep := some s } (hs ++ l0 :: l1 :: ls) = .ok o ∧
      o.columns = finalNames (fields s l0) (cells (dsep s) d).length ∧
      o.data = table (dsep s) (cells (dsep s) d).length (d :: ds) ∧
      o.sep = some (dsep s) ∧ o.commentChar = mark c hs ∧ o.commentLines = [] ∧ o.colNamesLine = some (hs.length : Int) := by
  have hpa' : ¬ 2 * nPa (strip l1) > (fields s l0).length := by
    have cnt : ∀ (ch : Char), isWs ch = false → (strip l1).count ch = l1.count ch := by
      intro ch hch
      obtain ⟨t, h1, h2⟩ := rstripBy_append isWs (lstripBy isWs l1)
      have e1 : (strip l1).count ch = (lstripBy isWs l1).count ch := by
        rw [h1]
        show _ = (strip l1 ++ t).count ch
        have : t.count ch = 0 := List.count_eq_zero.2 (fun hm => by rw [h2 _ hm] at hch; exact nomatch hch)
        rw [List.count_append, this, Nat.add_zero]
      rw [e1]
      have e2 : ∀ l : Str, (l.dropWhile isWs).count ch = l.count ch := by
        intro l
        induction l with
        | nil => rfl
        | cons x l ih =>
          rw [List.dropWhile_cons]
          by_cases hx : isWs x = true
          · rw [if_pos hx, ih, List.count_cons_of_ne]
            rintro rfl; rw [hch] at hx; exact nomatch hx
          · rw [if_neg hx]
      exact e2 l1
    rw [nPa, cnt _ (by decide), cnt _ (by decide)]
    omega
  have hnames : namesFromData T { sep := some s, header := hs.map strip, commentChar := mark c hs } (hs ++ l0 :: l1 :: ls) hs.length
      = .ok ({ sep := some s, header := hs.map strip, commentChar := mark c hs, colNames := fields s l0,
               colNamesLine := some hs.length }, hs.length + 1) := by
    rw [namesFromData]
    simp only [readline_nth, split_fields s hs', (isNames_iff T _).2 hw, if_true, readline_next, List.head?_cons, Option.map_some]
    rw [if_neg hpa']
  have hread : read T { sep := some s } (hs ++ l0 :: l1 :: ls) =
      readData { sep := some s, header := hs.map strip, commentChar := mark c hs, colNames := fields s l0,
                 colNamesLine := some hs.length } (hs ++ l0 :: l1 :: ls) (hs.length + 1) := by
    rw [read]
    simp only [safe_ok s hs', excluded_spec T c hs l0 _ H, readHeader_spec T c hs l0 _ _ H, List.length_map, detectSep, readNames,
      List.length_nil, gt_iff_lt, Nat.lt_irrefl, if_false, Bool.not_true, Bool.false_eq_true, hnames]
  rw [hread, readData]
  simp only [tab_ok]
  have happ : hs ++ l0 :: l1 :: ls = (hs ++ [l0]) ++ l1 :: ls := by simp
  rw [happ, readCsv_spec (dsep s) _ (mark c hs) (hs ++ [l0]) (l1 :: ls) d ds ?_ ?_ hb hq hlen]
  · refine ⟨_, rfl, ?_, rfl, rfl, rfl, rfl, rfl⟩
    simp only [finalNames]
    by_cases hl : (fields s l0).length = (cells (dsep s) d).length
    · rw [if_neg (by
        rintro (h | h)
        · exact hf (List.eq_nil_of_length_eq_zero h)
        · exact h hl), if_pos hl]
    · rw [if_pos (.inr hl), if_neg hl, List.map_map]
      apply List.map_congr_left
      intro i _
      exact strip_genName i
  · intro k hk
    simp at hk
    simp [skips]; omega
  · intro k hk
    simp at hk
    simp [skips]; omega

/-- **C51**, no names: if the first data line is not mostly words and no header line has as many
fields, the names are `C0 .. Cn-1` and every line of data is a row.
(Missing for the full property: names taken from the header.) -/
theorem C51_generated_partial (T : Txt) (s : Sep) (hs' : SepOk s) (c : Char) (hs : List Str) (l0 : Str) (ls : List Str)
    (H : Headed T c hs l0) (hw : ¬ MostlyWords T (fields s l0))
    (hh : ∀ h ∈ hs, (fields s ((strip h).drop 1)).length ≠ (fields s l0).length)
    (d : Str) (ds : List Str) (hb : body (mark c hs) (l0 :: ls) = d :: ds) (hq : ∀ l ∈ d :: ds, '"' ∉ l)
    (hlen : ∀ l ∈ ds, (cells (dsep s) l).length ≤ (cells (dsep s) d).length) :
    ∃ o, read T { sep := some s } (hs ++ l0 :: ls) = .ok o ∧
      o.columns = (List.range (cells (dsep s) d).length).map genName ∧
      o.data = table (dsep s) (cells (dsep s) d).length (d :: ds) ∧
      o.sep = some (dsep s) ∧ o.commentChar = mark c hs ∧ o.commentLines = [] ∧ o.colNamesLine = none ∧
      o.colNames = o.columns := by
  have hn : isNames T (fields s l0) = false := by
    rw [← Bool.not_eq_true, isNames_iff]; exact hw
  have hhn : ∀ (n : Nat) (hs : List Str), hs ≠ [] → (∀ h ∈ hs, (fields s ((strip h).drop 1)).length ≠ (fields s l0).length) →
      headerNames T (some s) (some c) (fields s l0).length n (hs.map strip) = none := by
    intro n hs _ hh
    induction hs with
    | nil => rfl
    | cons h hs ih =>
      have e : (split (some s) (some ((strip h).drop 1))).length = (fields s ((strip h).drop 1)).length := by
        cases s with
        | ws => simp only [split, fields, words_strip]
        | ch c => simp only [split, fields]
        | empty => exact absurd rfl hs'.1
      rw [List.map_cons, headerNames, if_neg (by simp only [e]; exact fun h' => hh h (by simp) h'.1)]
      cases hs with
      | nil => rfl
      | cons h2 hs => exact ih (by simp) (fun x hx => hh x (by simp [hx]))
  have hnames : namesFromData T { sep := some s, header := hs.map strip, commentChar := mark c hs } (hs ++ l0 :: ls) hs.length
      = .ok ({ sep := some s, header := hs.map strip, commentChar := mark c hs }, hs.length) := by
    rw [namesFromData]
    simp only [readline_nth, split_fields s hs', hn, Bool.false_eq_true, if_false]
    cases hs with
    | nil => rfl
    | cons h hs =>
      rw [if_pos (by simp)]
      have : mark c (h :: hs) = some c := rfl
      rw [this, hhn _ (h :: hs) (by simp) hh]
  have hread : read T { sep := some s } (hs ++ l0 :: ls) =
      readData { sep := some s, header := hs.map strip, commentChar := mark c hs } (hs ++ l0 :: ls) hs.length := by
    rw [read]
    simp only [safe_ok s hs', excluded_spec T c hs l0 _ H, readHeader_spec T c hs l0 _ _ H, List.length_map, detectSep, readNames,
      List.length_nil, gt_iff_lt, Nat.lt_irrefl, if_false, Bool.not_true, Bool.false_eq_true, hnames]
  rw [hread, readData]
  simp only [tab_ok]
  rw [readCsv_spec (dsep s) _ (mark c hs) hs (l0 :: ls) d ds ?_ ?_ hb hq hlen]
  · have e : ((List.range (cells (dsep s) d).length).map genName).map strip = (List.range (cells (dsep s) d).length).map genName := by
      rw [List.map_map]
      exact List.map_congr_left (fun i _ => strip_genName i)
    refine ⟨_, rfl, ?_, rfl, rfl, rfl, rfl, rfl, ?_⟩
    · simp only [List.length_nil, true_or, if_true, e]
    · simp only [List.length_nil, true_or, if_true, e]
  · intro k hk
    simp [skips, hk]
  · intro k hk
    simp [skips]; omega

/-- a toy: numbers are strings of digits -/
abbrev exT : Txt where
  isFloat s := s ≠ [] && s.all Char.isDigit
  isInt s := s ≠ [] && s.all Char.isDigit
  isAlpha s := s ≠ [] && s.all Char.isAlpha

def exLines (l : List String) : List Str := l.map String.toList

/-- C51 fails: a first row with brackets is taken for units and lost -/
theorem C51_units_fails :
    read exT { sep := some (.ch ',') } (exLines ["site,pos", "a,(1)(2)", "b,(3)(4)"]) = .ok
      { sep := some (.ch ','), colNames := exLines ["site_a", "pos_(1)(2)"], colNamesLine := some 0,
        columns := exLines ["site_a", "pos_(1)(2)"],
        data := [[some "b".toList, some "(3)(4)".toList]] } := by decide +kernel

/-- C51 fails: names are taken from a comment although the first line of data is numbers -/
theorem C51_header_fails :
    (read exT { sep := some (.ch ',') } (exLines ["# made by me, on monday", "1,2", "3,4"])).map (·.columns) =
      .ok (exLines ["made by me", "on monday"]) := by decide +kernel

/-- C51 fails: every file of one line of words raises -/
theorem C51_single_fails (T : Txt) (s : Sep) (hs' : SepOk s) (c : Char) (l0 : Str) (H : Headed T c [] l0)
    (hw : MostlyWords T (fields s l0)) : read T { sep := some s } [l0] = .error .attribute := by
  have hnames : namesFromData T { sep := some s, header := [], commentChar := none } [l0] 0 = .error .attribute := by
    have e1 : readline [l0] 0 = some (strip l0) := by simp [readline]
    have e2 : readline [l0] ((1 : Nat) : Int) = none := by simp [readline]
    rw [namesFromData]
    simp only [Nat.zero_add, e2]
    have e3 : readline [l0] ((0 : Nat) : Int) = some (strip l0) := e1
    rw [e3, split_fields s hs', (isNames_iff T _).2 hw]
    rfl
  have h1 := excluded_spec T c [] l0 [] H
  have h2 := readHeader_spec T c [] l0 [] (some s) H
  rw [List.nil_append] at h1 h2
  rw [read]
  simp only [safe_ok s hs', h1, h2, List.map_nil, List.length_nil, detectSep, readNames,
    gt_iff_lt, Nat.lt_irrefl, if_false, Bool.not_true, Bool.false_eq_true]
  have : mark c [] = none := rfl
  rw [this, hnames]

theorem exHeaded : Headed exT '#' (exLines ["# x", "#y"]) "t, a,b".toList := by
  refine ⟨by decide, by decide, by decide, by decide, nofun, ?_⟩
  intro l hl w0 w1 r hw h
  have : l = "# x".toList := by injection hl with h; exact h.symm
  subst this
  have hw' : words "# x".toList = ["#".toList, "x".toList] := by decide +kernel
  rw [hw'] at hw
  injection hw with e1 e2
  subst e1
  exact absurd h.1 (by decide)

/-- the hypotheses of `C51_names_partial` -/
example : SepOk (.ch ',') ∧ Headed exT '#' (exLines ["# x", "#y"]) "t, a,b".toList ∧
    MostlyWords exT (fields (.ch ',') "t, a,b".toList) ∧ fields (.ch ',') "t, a,b".toList ≠ [] ∧
    body (some '#') (exLines ["1,2,3", "", "4,5"]) = "1,2,3".toList :: exLines ["4,5"] ∧
    (∀ l ∈ exLines ["4,5"], (cells (.ch ',') l).length ≤ (cells (.ch ',') "1,2,3".toList).length) := by
  refine ⟨by decide, exHeaded, .inl ?_, ?_, ?_, ?_⟩ <;> decide +kernel

example : read exT { sep := some (.ch ',') } (exLines ["# x", "#y", "t, a,b", "1,2,3", "", "4,5"]) = .ok
      { sep := some (.ch ','), colNames := exLines ["t", "a", "b"], colNamesLine := some 2, commentChar := some '#',
        header := exLines ["# x", "#y"], columns := exLines ["t", "a", "b"],
        data := [[some ['1'], some ['2'], some ['3']], [some ['4'], some ['5'], none]] } := by decide +kernel

/-- the hypotheses of `C51_generated_partial` -/
example : Headed exT '#' [] "1 2 x".toList ∧ ¬ MostlyWords exT (fields .ws "1 2 x".toList) := by
  refine ⟨⟨by decide, by decide, by decide, by decide, by decide, ?_⟩, ?_⟩
  · intro l hl w0 w1 r hw h
    have : l = "1 2 x".toList := by injection hl with h; exact h.symm
    subst this
    have hw' : words "1 2 x".toList = ["1".toList, "2".toList, "x".toList] := by decide +kernel
    rw [hw'] at hw
    injection hw with e1 e2
    injection e2 with e2 e3
    subst e2
    exact absurd h.2 (by decide)
  · rw [← isNames_iff]; decide +kernel

/-! ### C50 -/

theorem detect_eq (T : Txt) (c : Char) (hs : List Str) (l0 l1 : Str) (ls : List Str) (H : Headed T c hs l0) (s : Sep) (hs' : SepOk s)
    (hd : detectSep none (hs ++ l0 :: l1 :: ls) hs.length = some s) :
    read T {} (hs ++ l0 :: l1 :: ls) = read T { sep := some s } (hs ++ l0 :: l1 :: ls) := by
  rw [read, read]
  have h0 : safeSep none = none := rfl
  simp only [safe_ok s hs', h0, excluded_spec T c hs l0 _ H, readHeader_spec T c hs l0 _ _ H, List.length_map, hd]
  simp only [detectSep]

/-- **C50**/**C51**: the separator is found in the second data line: comma, else semicolon, else tab,
not at its start, else blanks; the file is then read as with this separator -/
theorem C50_sep (T : Txt) (c : Char) (hs : List Str) (l0 l1 : Str) (ls : List Str) (H : Headed T c hs l0) (a b : Str) (s : Char)
    (hl : strip l1 = a ++ s :: b) (ha : a ≠ []) (hna : ',' ∉ a ∧ ';' ∉ a ∧ '\t' ∉ a)
    (hcase : s = ',' ∨ (s = ';' ∧ ',' ∉ b) ∨ (s = '\t' ∧ ',' ∉ b ∧ ';' ∉ b)) :
    read T {} (hs ++ l0 :: l1 :: ls) = read T { sep := some (.ch s) } (hs ++ l0 :: l1 :: ls) := by
  have fnone : ∀ (x : Char) (l : Str), x ∉ l → find [x] l = none := by
    intro x l
    induction l with
    | nil => intro _; rfl
    | cons y l ih =>
      intro h
      rw [find, if_neg, ih (fun h' => h (by simp [h']))]; rfl
      simp only [List.isPrefixOf, Bool.and_true, beq_iff_eq]
      rintro rfl
      exact h (by simp)
  have fsome : ∀ (x : Char) (a b : Str), x ∉ a → find [x] (a ++ x :: b) = some a.length := by
    intro x a b
    induction a with
    | nil => intro _; rw [List.nil_append, find, if_pos (by simp [List.isPrefixOf])]; rfl
    | cons y a ih =>
      intro h
      rw [List.cons_append, find, if_neg, ih (fun h' => h (by simp [h']))]; rfl
      simp only [List.isPrefixOf, Bool.and_true, beq_iff_eq]
      rintro rfl
      exact h (by simp)
  have pos : ∀ (x : Char), x ∉ a → x = s → findPos x (a ++ s :: b) = true := by
    rintro x h rfl
    rw [findPos, fsome x a b h]
    cases a with
    | nil => exact absurd rfl ha
    | cons y a => rfl
  have neg : ∀ (x : Char), x ∉ a → x ≠ s → x ∉ b → findPos x (a ++ s :: b) = false := by
    intro x h h1 h2
    rw [findPos, fnone]
    simp [h, h1, h2]
  have hok : SepOk (.ch s) := by
    refine ⟨nofun, ?_⟩
    rcases hcase with rfl | ⟨rfl, -⟩ | ⟨rfl, -⟩ <;> decide
  refine detect_eq T c hs l0 l1 ls H (.ch s) hok ?_
  have hg : ((hs ++ l0 :: l1 :: ls)[hs.length + 1]?).map strip = some (a ++ s :: b) := by
    rw [List.getElem?_append_right (by omega), Nat.add_sub_cancel_left]
    simp [hl]
  rw [detectSep, hg]
  simp only
  rcases hcase with rfl | ⟨rfl, h1⟩ | ⟨rfl, h1, h2⟩
  · rw [pos ',' hna.1 rfl]; rfl
  · rw [neg ',' hna.1 (by decide) h1, pos ';' hna.2.1 rfl]; rfl
  · rw [neg ',' hna.1 (by decide) h1, neg ';' hna.2.1 (by decide) h2, pos '\t' hna.2.2 rfl]; rfl

/-- texts written without quotes -/
def Bare (c : Char) (s : Str) : Prop := c ∉ s ∧ '"' ∉ s ∧ '\n' ∉ s ∧ '\r' ∉ s

theorem quote_bare (c : Char) (s : Str) (h : Bare c s) : quote c s = s := by
  rw [quote, if_neg]
  rintro (h' | h' | h' | h')
  · exact h.1 h'
  · exact h.2.1 h'
  · exact h.2.2.1 h'
  · exact h.2.2.2 h'

/-- names that are read back: no blanks around, not empty -/
def NameOk (c : Char) (s : Str) : Prop := Bare c s ∧ strip s = s ∧ s ≠ []

/-- rows that are read back: as many cells as names, no empty texts -/
def RowOk (c : Char) (n : Nat) (r : List Cell) : Prop :=
  r.length = n ∧ (∀ x ∈ r, x ≠ some [] ∧ Bare c (cellText x)) ∧ strip (joinWith [c] (r.map cellText)) ≠ []

theorem strip_joinNames (c : Char) (ns : List Str) (h : ∀ n ∈ ns, NameOk c n) :
    strip (joinWith [c] ns) = joinWith [c] ns := by
  have ends : ∀ s : Str, strip s = s → s ≠ [] → (∀ x, s.head? = some x → isWs x = false) ∧ (∀ x, s.getLast? = some x → isWs x = false) := by
    intro s hs hne
    constructor
    · intro x hx
      cases s with
      | nil => exact nomatch hx
      | cons y s =>
        simp only [List.head?_cons, Option.some.injEq] at hx
        subst hx
        cases hw : isWs y with
        | false => rfl
        | true =>
        exfalso
        have : (strip (y :: s)).length ≤ s.length := by
          rw [strip, stripBy, lstripBy, List.dropWhile_cons, if_pos hw, rstripBy, List.length_reverse]
          refine Nat.le_trans (List.dropWhile_suffix _).length_le ?_
          rw [List.length_reverse]
          exact (List.dropWhile_suffix _).length_le
        rw [hs, List.length_cons] at this
        omega
    · intro x hx
      rw [← hs, strip, stripBy, rstripBy, List.getLast?_reverse] at hx
      generalize (lstripBy isWs s).reverse = l at hx
      induction l with
      | nil => simp at hx
      | cons z l ih =>
        rw [List.dropWhile_cons] at hx
        by_cases hz : isWs z = true
        · rw [if_pos hz] at hx; exact ih hx
        · rw [if_neg hz] at hx
          simp only [List.head?_cons, Option.some.injEq] at hx
          subst hx; simpa using hz
  apply stripBy_eq_self
  · intro x hx
    cases ns with
    | nil => exact nomatch hx
    | cons n ns =>
      have hn := h n (by simp)
      rw [joinWith_head? _ _ _ hn.2.2] at hx
      exact (ends n hn.2.1 hn.2.2).1 x hx
  · intro x hx
    rw [joinWith_getLast? _ _ (fun n hn => (h n hn).2.2)] at hx
    cases hl : ns.getLast? with
    | none => rw [hl] at hx; exact nomatch hx
    | some n =>
      rw [hl] at hx
      have hn := h n (List.mem_of_getLast? hl)
      exact (ends n hn.2.1 hn.2.2).2 x hx

/-- **C50**: writing a table with a separator other than blanks and reading it with this separator gives back
the names and the rows, if the object has no header and the names are mostly words.
(Missing for the full property: the failures below; tabs.) -/
theorem C50_partial (T : Txt) (c : Char) (hc : isWs c = false) (hcq : c ≠ '"') (cols : List Str) (r : List Cell) (rows : List (List Cell)) (w : Obj)
    (hw : w.sep = some (.ch c)) (hh : w.header = []) (hcols : w.columns = cols) (hdata : w.data = r :: rows)
    (hne : cols ≠ []) (hn : ∀ n ∈ cols, NameOk c n) (hr : ∀ x ∈ r :: rows, RowOk c cols.length x)
    (hm : MostlyWords T cols) (H : Headed T '#' [] (joinWith [c] cols))
    (hpa : 2 * ((joinWith [c] (r.map cellText)).count '(' + (joinWith [c] (r.map cellText)).count '[') ≤ cols.length) :
    ∃ lines o, write w = .ok lines ∧ read T { sep := some (.ch c) } lines = .ok o ∧
      o.columns = cols ∧ o.data = r :: rows := by
  have hsep : SepOk (.ch c) := by
    refine ⟨nofun, ?_⟩
    intro e; injection e with e; subst e; exact nomatch hc
  have hds : dsep (.ch c) = .ch c := by
    rw [dsep, if_neg]
    intro e; injection e with e; subst e; exact nomatch hc
  -- the lines written
  let line := fun x : List Cell => joinWith [c] (x.map cellText)
  have hwrite : write w = .ok (joinWith [c] cols :: line r :: rows.map line) := by
    have q1 : cols.map (quote c) = cols := by
      conv => rhs; rw [← List.map_id cols]
      exact List.map_congr_left (fun n hnm => quote_bare c n (hn n hnm).1)
    have q2 : ∀ x ∈ r :: rows, (x.map cellText).map (quote c) = x.map cellText := by
      intro x hx
      conv => rhs; rw [← List.map_id (x.map cellText)]
      refine List.map_congr_left (fun t ht => ?_)
      obtain ⟨y, hy, rfl⟩ := List.mem_map.1 ht
      exact quote_bare c _ ((hr x hx).2.1 y hy).2
    rw [write, hw]
    simp only [hh, List.length_nil, gt_iff_lt, Nat.lt_irrefl, if_false, hcols, hdata, toCsv, List.map_cons, q1, q2 r (by simp)]
    rw [List.map_map]
    have : rows.map ((fun r => joinWith [c] (r.map (quote c))) ∘ fun x => x.map cellText) = rows.map line := by
      refine List.map_congr_left (fun x hx => ?_)
      show joinWith [c] ((x.map cellText).map (quote c)) = _
      rw [q2 x (by simp [hx])]
    rw [this]
  have hf : fields (.ch c) (joinWith [c] cols) = cols := by
    show (splitOn c (strip (joinWith [c] cols))).map strip = cols
    rw [strip_joinNames c cols hn, splitOn_join c cols hne (fun n hnm => (hn n hnm).1.1)]
    conv => rhs; rw [← List.map_id cols]
    exact List.map_congr_left (fun n hnm => (hn n hnm).2.1)
  have hclen : ∀ x ∈ r :: rows, cells (.ch c) (line x) = x.map cellText := by
    intro x hx
    have hl := (hr x hx).1
    have hpos : 0 < cols.length := List.length_pos_iff.2 hne
    show splitOn c (joinWith [c] (x.map cellText)) = _
    rw [splitOn_join]
    · intro e
      rw [List.map_eq_nil_iff] at e
      rw [e] at hl; simp at hl; omega
    · intro t ht
      obtain ⟨y, hy, rfl⟩ := List.mem_map.1 ht
      exact ((hr x hx).2.1 y hy).2.1
  have hbody : body (mark '#' []) (line r :: rows.map line) = line r :: rows.map line := by
    have : ∀ ls : List Str, (∀ l ∈ ls, strip l ≠ []) → body none ls = ls := by
      intro ls h
      rw [body]
      have e : ls.map (uncomment none) = ls := by
        conv => rhs; rw [← List.map_id ls]
        rfl
      rw [e, List.filter_eq_self]
      intro l hl
      simpa using h l hl
    apply this
    intro l hl
    rcases List.mem_cons.1 hl with rfl | hl
    · exact (hr r (by simp)).2.2
    · obtain ⟨x, hx, rfl⟩ := List.mem_map.1 hl
      exact (hr x (by simp [hx])).2.2
  have hlines : ∀ l ∈ line r :: rows.map line, ∃ x ∈ r :: rows, l = line x := by
    intro l hl
    rcases List.mem_cons.1 hl with rfl | hl
    · exact ⟨r, by simp, rfl⟩
    · obtain ⟨x, hx, rfl⟩ := List.mem_map.1 hl
      exact ⟨x, by simp [hx], rfl⟩
  obtain ⟨o, h1, h2, h3, -⟩ := C51_names_partial T (.ch c) hsep '#' [] (joinWith [c] cols) (line r) (rows.map line) H
    (by rw [hf]; exact hm) (by rw [hf]; exact hne) (by rw [hf]; exact hpa) (line r) (rows.map line) hbody
    (by
      intro l hl hq
      obtain ⟨x, hx, rfl⟩ := hlines l hl
      rcases mem_joinWith _ _ _ hq with h | ⟨t, ht, hq⟩
      · rw [List.mem_singleton] at h; exact hcq h.symm
      · obtain ⟨y, hy, rfl⟩ := List.mem_map.1 ht
        exact ((hr x hx).2.1 y hy).2.2.1 hq)
    (by
      intro l hl
      obtain ⟨x, hx, rfl⟩ := List.mem_map.1 hl
      rw [hds, hclen x (by simp [hx]), hclen r (by simp), List.length_map, List.length_map, (hr x (by simp [hx])).1, (hr r (by simp)).1]
      exact Nat.le_refl _)
  refine ⟨_, o, hwrite, h1, ?_, ?_⟩
  · rw [h2, hds, hclen r (by simp), hf, finalNames, if_pos (by rw [List.length_map, (hr r (by simp)).1])]
    conv => rhs; rw [← List.map_id cols]
    exact List.map_congr_left (fun n hnm => (hn n hnm).2.1)
  · rw [h3, hds, hclen r (by simp), List.length_map, (hr r (by simp)).1]
    have : ∀ x ∈ r :: rows, (cells (.ch c) (line x)).map toCell ++ List.replicate (cols.length - (cells (.ch c) (line x)).length) none = x := by
      intro x hx
      rw [hclen x hx, List.length_map, (hr x hx).1, Nat.sub_self, List.replicate_zero, List.append_nil, List.map_map]
      conv => rhs; rw [← List.map_id x]
      refine List.map_congr_left (fun y hy => ?_)
      have := ((hr x hx).2.1 y hy).1
      cases y with
      | none => rfl
      | some t =>
        show toCell t = some t
        rw [toCell, if_neg]
        rintro rfl; exact this rfl
    rw [table, List.map_cons, List.map_map, this r (by simp)]
    congr 1
    conv => rhs; rw [← List.map_id rows]
    exact List.map_congr_left (fun x hx => this x (by simp [hx]))

/-- **C50** for a reader without arguments: with at least two columns, a comma (or a semicolon and no
comma in the first row) is found by itself -/
theorem C50_fresh_partial (T : Txt) (c : Char) (cols : List Str) (x y : Cell) (r : List Cell) (rows : List (List Cell)) (w : Obj)
    (hw : w.sep = some (.ch c)) (hh : w.header = []) (hcols : w.columns = cols) (hdata : w.data = (x :: y :: r) :: rows)
    (hne : cols ≠ []) (hn : ∀ n ∈ cols, NameOk c n) (hr : ∀ x' ∈ (x :: y :: r) :: rows, RowOk c cols.length x')
    (hm : MostlyWords T cols) (H : Headed T '#' [] (joinWith [c] cols))
    (hpa : 2 * ((joinWith [c] ((x :: y :: r).map cellText)).count '(' + (joinWith [c] ((x :: y :: r).map cellText)).count '[') ≤ cols.length)
    (hx : strip (cellText x) = cellText x ∧ x ≠ none ∧ ',' ∉ cellText x ∧ ';' ∉ cellText x ∧ '\t' ∉ cellText x)
    (hcase : c = ',' ∨ (c = ';' ∧ ∀ z ∈ x :: y :: r, ',' ∉ cellText z)) :
    ∃ lines o, write w = .ok lines ∧ read T {} lines = .ok o ∧ o.columns = cols ∧ o.data = (x :: y :: r) :: rows := by
  have hc : isWs c = false := by rcases hcase with rfl | ⟨rfl, -⟩ <;> decide
  have hcq : c ≠ '"' := by rcases hcase with rfl | ⟨rfl, -⟩ <;> decide
  obtain ⟨lines, o, h1, h2, h3, h4⟩ := C50_partial T c hc hcq cols _ rows w hw hh hcols hdata hne hn hr hm H hpa
  refine ⟨lines, o, h1, ?_, h3, h4⟩
  obtain ⟨a, ha⟩ : ∃ a, x = some a := by
    cases x with
    | none => exact absurd rfl hx.2.1
    | some a => exact ⟨a, rfl⟩
  subst ha
  have hane : a ≠ [] := fun e => ((hr (some a :: y :: r) (by simp)).2.1 (some a) (by simp)).1 (by rw [e])
  -- the lines written
  have hl : ∃ rest, lines = joinWith [c] cols :: joinWith [c] ((some a :: y :: r).map cellText) :: rest := by
    rw [write, hw] at h1
    simp only [hh, List.length_nil, gt_iff_lt, Nat.lt_irrefl, if_false, hcols, hdata, toCsv, List.map_cons] at h1
    injection h1 with h1
    have q1 : cols.map (quote c) = cols := by
      conv => rhs; rw [← List.map_id cols]
      exact List.map_congr_left (fun n hnm => quote_bare c n (hn n hnm).1)
    have q2 : ((some a :: y :: r).map cellText).map (quote c) = (some a :: y :: r).map cellText := by
      conv => rhs; rw [← List.map_id ((some a :: y :: r).map cellText)]
      refine List.map_congr_left (fun t ht => ?_)
      obtain ⟨y', hy, rfl⟩ := List.mem_map.1 ht
      exact quote_bare c _ ((hr (some a :: y :: r) (by simp)).2.1 y' hy).2
    rw [List.map_cons, List.map_cons, List.map_cons, List.map_cons] at q2
    rw [q1, q2] at h1
    exact ⟨_, h1.symm⟩
  obtain ⟨rest, rfl⟩ := hl
  have hsplit : joinWith [c] ((some a :: y :: r).map cellText) = a ++ c :: joinWith [c] ((y :: r).map cellText) := by
    rw [List.map_cons, joinWith_cons _ _ _ (by simp)]; simp [cellText]
  -- stripping keeps the first cell and the separator
  have hstrip : ∃ b, strip (a ++ c :: joinWith [c] ((y :: r).map cellText)) = a ++ c :: b ∧
      ∀ z, z ∈ b → z ∈ joinWith [c] ((y :: r).map cellText) := by
    generalize joinWith [c] ((y :: r).map cellText) = t
    have hhead : ∀ z, a.head? = some z → isWs z = false := by
      intro z hz
      cases a with
      | nil => exact nomatch hz
      | cons q a =>
        simp only [List.head?_cons, Option.some.injEq] at hz
        subst hz
        cases hw : isWs q with
        | false => rfl
        | true =>
          exfalso
          have hle : (strip (q :: a)).length ≤ a.length := by
            rw [strip, stripBy, lstripBy, List.dropWhile_cons, if_pos hw, rstripBy, List.length_reverse]
            refine Nat.le_trans (List.dropWhile_suffix _).length_le ?_
            rw [List.length_reverse]
            exact (List.dropWhile_suffix _).length_le
          have : strip (q :: a) = q :: a := hx.1
          rw [this, List.length_cons] at hle
          omega
    have h1 : lstripBy isWs (a ++ c :: t) = a ++ c :: t := by
      cases a with
      | nil => exact absurd rfl hane
      | cons q a =>
        rw [lstripBy, List.cons_append, List.dropWhile_cons, if_neg (by rw [hhead q rfl]; simp)]
    refine ⟨rstripBy isWs t, ?_, ?_⟩
    · rw [strip, stripBy, h1, rstripBy, rstripBy, List.reverse_append, List.reverse_cons]
      have : ∀ (l m : Str), (l ++ c :: m).dropWhile isWs = l.dropWhile isWs ++ c :: m := by
        intro l m
        induction l with
        | nil => rw [List.nil_append, List.dropWhile_cons, if_neg (by rw [hc]; simp)]; rfl
        | cons z l ih =>
          rw [List.cons_append, List.dropWhile_cons, List.dropWhile_cons]
          split
          · exact ih
          · rfl
      rw [List.append_assoc, List.singleton_append, this, List.reverse_append, List.reverse_cons, List.reverse_reverse]
      simp
    · intro z hz
      obtain ⟨u, hu, -⟩ := rstripBy_append isWs t
      rw [hu]; exact List.mem_append_left _ hz
  obtain ⟨b, hb, hbm⟩ := hstrip
  have := C50_sep T '#' [] (joinWith [c] cols) (joinWith [c] ((some a :: y :: r).map cellText)) rest H a b c
    (by rw [hsplit, hb]) hane ⟨hx.2.2.1, hx.2.2.2.1, hx.2.2.2.2⟩ (by
      rcases hcase with h | ⟨h, h'⟩
      · exact .inl h
      · refine .inr (.inl ⟨h, fun hm => ?_⟩)
        rcases mem_joinWith _ _ _ (hbm _ hm) with h2 | ⟨z, hz, h2⟩
        · rw [List.mem_singleton, h] at h2; exact absurd h2 (by decide)
        · obtain ⟨q, hq, rfl⟩ := List.mem_map.1 hz
          exact h' q (by simp [List.mem_cons.1 hq]) h2)
  rw [List.nil_append] at this
  rw [this]
  exact h2

/-- an example of the hypotheses -/
def exObj : Obj where
  sep := some (.ch ',')
  columns := exLines ["t s", "a"]
  data := [[some ['1'], some ['2']], [none, some ['4']]]

theorem exHeaded2 : Headed exT '#' [] "t s,a".toList := by
  refine ⟨by decide, by decide, by decide, by decide, by decide, ?_⟩
  intro l hl w0 w1 r hw h
  have : l = "t s,a".toList := by injection hl with h; exact h.symm
  subst this
  have hw' : words "t s,a".toList = ["t".toList, "s,a".toList] := by decide +kernel
  rw [hw'] at hw
  injection hw with e1 e2
  subst e1
  exact absurd h.1 (by decide)

instance (c : Char) (s : Str) : Decidable (Bare c s) := by unfold Bare; infer_instance
instance (c : Char) (s : Str) : Decidable (NameOk c s) := by unfold NameOk; infer_instance
instance (c : Char) (n : Nat) (r : List Cell) : Decidable (RowOk c n r) := by unfold RowOk; infer_instance

example : (∀ n ∈ exObj.columns, NameOk ',' n) ∧ (∀ x ∈ exObj.data, RowOk ',' 2 x) ∧
    MostlyWords exT exObj.columns ∧ Headed exT '#' [] (joinWith [','] exObj.columns) := by
  refine ⟨by decide +kernel, by decide +kernel, (isNames_iff _ _).1 (by decide +kernel), ?_⟩
  have : joinWith [','] exObj.columns = "t s,a".toList := by decide +kernel
  rw [this]; exact exHeaded2

example : write exObj = .ok (exLines ["t s,a", "1,2", ",4"]) ∧
    (read exT {} (exLines ["t s,a", "1,2", ",4"])).map (fun o => (o.columns, o.data)) = .ok (exObj.columns, exObj.data) := by
  decide +kernel

/-- **C50 is violated by every object with a header**: the names are not written, so files of
tables with different names are the same -/
theorem C50_fails (o : Obj) (names : List Str) (hh : o.header ≠ []) : write { o with columns := names } = write o := by
  have : 0 < o.header.length := List.length_pos_iff.2 hh
  simp only [write]
  cases o.sep with
  | none => rfl
  | some s => simp only [gt_iff_lt, this, if_true]

example : { exObj with header := exLines ["# x"] }.header ≠ [] := by decide

/-- C50 fails: names that are numbers come back as a row, names with the separator are replaced,
and a table without rows cannot be read -/
theorem C50_names_fails :
    (write { exObj with columns := exLines ["0", "1"] }).bind
        (fun l => (read exT {} l).map fun o => (o.columns, o.data)) =
      .ok (exLines ["C0", "C1"], [[some ['0'], some ['1']], [some ['1'], some ['2']], [none, some ['4']]]) ∧
    (write { exObj with columns := exLines ["x,y", "a"] }).bind
        (fun l => (read exT {} l).map fun o => (o.columns, o.data)) =
      .ok (exLines ["C0", "C1"], exObj.data) ∧
    (write { exObj with data := [] }).bind (read exT {}) = .error .attribute := by
  decide +kernel

/-! ### C66: reading again -/

theorem readHeader_again (T : Txt) (c : Char) (hs : List Str) (l0 : Str) (ls : List Str) (o : Obj) (H : Headed T c hs l0)
    (h1 : o.commentChar = mark c hs) (h2 : o.commentLines = []) :
    readHeader o (hs ++ l0 :: ls) = { o with header := hs.map strip, commentLines := List.range hs.length } := by
  cases hs with
  | nil =>
    have e : readline ([] ++ l0 :: ls) 0 = some (strip l0) := by simp [readline]
    have hm : mark c [] = none := rfl
    rw [readHeader, h2, h1, hm]
    simp only [e, Option.bind_some]
    cases h0 : (strip l0).head? with
    | none => simp [← h2]
    | some d =>
      simp only
      rw [if_neg (H.plain rfl d h0)]
      simp [← h2]
  | cons h hs =>
    have hc : commented c 100 (h :: hs ++ l0 :: ls) = (h :: hs).map strip :=
      commented_spec c (h :: hs) (l0 :: ls) 100 H.marked H.short (by
        intro l hl
        simp only [List.head?_cons, Option.some.injEq] at hl
        subst hl; exact H.ends)
    have hm : mark c (h :: hs) = some c := rfl
    rw [readHeader, h2, h1, hm]
    simp only [hc, List.length_map]

/-- **C66**, names found: reading the file again gives the same names and rows.
(Missing for the full property: tabs, units, other files; see the failures.) -/
theorem C66_names_partial (T : Txt) (s : Sep) (hs' : SepOk s) (ht : s ≠ .ch '\t') (c : Char) (hs : List Str) (l0 l1 : Str) (ls : List Str)
    (H : Headed T c hs l0) (hw : MostlyWords T (fields s l0)) (hf : fields s l0 ≠ [])
    (hpa : 2 * (l1.count '(' + l1.count '[') ≤ (fields s l0).length)
    (d : Str) (ds : List Str) (hb : body (mark c hs) (l1 :: ls) = d :: ds) (hq : ∀ l ∈ d :: ds, '"' ∉ l)
    (hlen : ∀ l ∈ ds, (cells (dsep s) l).length ≤ (cells (dsep s) d).length) :
    ∃ o o', read T { sep := some s } (hs ++ l0 :: l1 :: ls) = .ok o ∧ read T o (hs ++ l0 :: l1 :: ls) = .ok o' ∧
      o'.columns = o.columns ∧ o'.data = o.data := by
  obtain ⟨o, h1, h2, h3, h4, h5, h6, h7⟩ := C51_names_partial T s hs' c hs l0 l1 ls H hw hf hpa d ds hb hq hlen
  have hds : dsep s = s := by rw [dsep, if_neg ht]
  rw [hds] at h4 h3 h2
  refine ⟨o, ?_⟩
  suffices ∃ o', read T o (hs ++ l0 :: l1 :: ls) = .ok o' ∧ o'.columns = o.columns ∧ o'.data = o.data by
    obtain ⟨o', a, b⟩ := this; exact ⟨o', h1, a, b⟩
  have hnames : ∀ o1 : Obj, o1.sep = some s → o1.colNamesLine = some (hs.length : Int) →
      readNames T o1 (hs ++ l0 :: l1 :: ls) hs.length = .ok ({ o1 with colNames := fields s l0 }, hs.length + 1) := by
    intro o1 e1 e2
    have : readNames T o1 (hs ++ l0 :: l1 :: ls) hs.length = namesFromLine o1 (hs ++ l0 :: l1 :: ls) hs.length hs.length := by
      rw [readNames, e2]
    rw [this, namesFromLine, if_neg (by omega), readline_nth, Int.toNat_natCast, Nat.max_eq_right (by omega)]
    obtain ⟨_, _, _, _, _, _, _, _, _⟩ := o1
    simp only at e1
    subst e1
    rw [split_fields s hs']
  obtain ⟨sep, cn, cc, cl, cnl, dt, hd, co, da⟩ := o
  simp only at h2 h3 h4 h5 h6 h7
  subst h4
  rw [read]
  simp only [safe_ok s hs', excluded_spec T c hs l0 _ H]
  rw [readHeader_again T c hs l0 _ _ H h5 h6]
  simp only [List.length_map, detectSep]
  rw [hnames _ rfl h7]
  simp only [readData, tab_ok, hds]
  have happ : hs ++ l0 :: l1 :: ls = (hs ++ [l0]) ++ l1 :: ls := by simp
  rw [happ, h5, readCsv_spec s _ (mark c hs) (hs ++ [l0]) (l1 :: ls) d ds ?_ ?_ hb hq (by rw [hds] at hlen; exact hlen)]
  · refine ⟨_, rfl, ?_, h3.symm⟩
    rw [h2]
    simp only [finalNames]
    by_cases hl : (fields s l0).length = (cells s d).length
    · rw [if_neg (by
        rintro (h | h)
        · exact hf (List.eq_nil_of_length_eq_zero h)
        · exact h hl), if_pos hl]
    · rw [if_pos (.inr hl), if_neg hl, List.map_map]
      exact List.map_congr_left (fun i _ => strip_genName i)
  · intro k hk
    simp at hk
    simp [skips]; omega
  · intro k hk
    simp at hk
    simp [skips, h7]; omega

/-- **C66**, no names: reading the file again gives the same names and rows.
(Missing for the full property: as above.) -/
theorem C66_generated_partial (T : Txt) (s : Sep) (hs' : SepOk s) (ht : s ≠ .ch '\t') (c : Char) (hs : List Str) (l0 : Str) (ls : List Str)
    (H : Headed T c hs l0) (hw : ¬ MostlyWords T (fields s l0))
    (hh : ∀ h ∈ hs, (fields s ((strip h).drop 1)).length ≠ (fields s l0).length)
    (d : Str) (ds : List Str) (hb : body (mark c hs) (l0 :: ls) = d :: ds) (hq : ∀ l ∈ d :: ds, '"' ∉ l)
    (hlen : ∀ l ∈ ds, (cells (dsep s) l).length ≤ (cells (dsep s) d).length) :
    ∃ o o', read T { sep := some s } (hs ++ l0 :: ls) = .ok o ∧ read T o (hs ++ l0 :: ls) = .ok o' ∧
      o'.columns = o.columns ∧ o'.data = o.data := by
  obtain ⟨o, h1, h2, h3, h4, h5, h6, h7, h8⟩ := C51_generated_partial T s hs' c hs l0 ls H hw hh d ds hb hq hlen
  have hds : dsep s = s := by rw [dsep, if_neg ht]
  rw [hds] at h4 h3 h2
  refine ⟨o, ?_⟩
  suffices ∃ o', read T o (hs ++ l0 :: ls) = .ok o' ∧ o'.columns = o.columns ∧ o'.data = o.data by
    obtain ⟨o', a, b⟩ := this; exact ⟨o', h1, a, b⟩
  have hpos : 0 < (cells s d).length := by
    have hd : strip d ≠ [] := by
      have : d ∈ body (mark c hs) (l0 :: ls) := by rw [hb]; simp
      rw [body, List.mem_filter] at this
      simpa using this.2
    cases s with
    | ch x => exact List.length_pos_iff.2 (splitOn_ne_nil x d)
    | empty => exact absurd rfl hs'.1
    | ws =>
      refine List.length_pos_iff.2 ?_
      intro e
      -- no words: only blanks
      have hw0 : ∀ t : Str, words t = [] → strip t = [] := by
        intro t ht
        have e1 : words (strip t) = [] := by rw [words_strip]; exact ht
        cases hst : strip t with
        | nil => rfl
        | cons x t' =>
          exfalso
          rw [hst] at e1
          by_cases hx : isWs x = true
          · have hle : (strip (strip t)).length ≤ t'.length := by
              rw [hst, strip, stripBy, lstripBy, List.dropWhile_cons, if_pos hx, rstripBy, List.length_reverse]
              refine Nat.le_trans (List.dropWhile_suffix _).length_le ?_
              rw [List.length_reverse]
              exact (List.dropWhile_suffix _).length_le
            rw [strip_strip, hst, List.length_cons] at hle
            omega
          · have hne : ∀ (s b : Str), b ≠ [] → wordsAux b s ≠ [] := by
              intro s
              induction s with
              | nil => intro b hb; rw [wordsAux, if_neg hb]; simp
              | cons z s ih3 =>
                intro b hb
                rw [wordsAux, if_neg hb]
                split
                · simp
                · exact ih3 _ (by simp)
            rw [words, wordsAux, if_neg hx] at e1
            exact hne t' _ (by simp) e1
      exact hd (hw0 d e)
  have hcl : o.colNames.length = (cells s d).length := by rw [h8, h2]; simp
  have hnames : ∀ o1 : Obj, o1.colNamesLine = none → 0 < o1.colNames.length →
      readNames T o1 (hs ++ l0 :: ls) hs.length = .ok (o1, hs.length) := by
    intro o1 e1 e2
    rw [readNames, e1]
    simp only [gt_iff_lt]
    rw [if_pos e2]
  obtain ⟨sep, cn, cc, cl, cnl, dt, hd, co, da⟩ := o
  simp only at h2 h3 h4 h5 h6 h7 h8 hcl
  subst h4
  rw [read]
  simp only [safe_ok s hs', excluded_spec T c hs l0 _ H]
  rw [readHeader_again T c hs l0 _ _ H h5 h6]
  simp only [List.length_map, detectSep]
  rw [hnames _ h7 (by simp only; omega)]
  simp only [readData, tab_ok, hds]
  rw [h5, readCsv_spec s _ (mark c hs) hs (l0 :: ls) d ds ?_ ?_ hb hq (by rw [hds] at hlen; exact hlen)]
  · refine ⟨_, rfl, ?_, h3.symm⟩
    rw [if_neg (by omega), h8, h2, List.map_map]
    exact List.map_congr_left (fun i _ => strip_genName i)
  · intro k hk
    simp [skips, hk]
  · intro k hk
    simp [skips, h7]; omega

/-- C66 fails: a file with tabs, a file with units, and another file -/
theorem C66_fails :
    -- tabs: the names are lost
    ((read exT {} (exLines ["Wind Speed\tTime", "1\t2"])).map (·.columns) = .ok (exLines ["Wind Speed", "Time"]) ∧
      ((read exT {} (exLines ["Wind Speed\tTime", "1\t2"])).bind (read exT · (exLines ["Wind Speed\tTime", "1\t2"]))).map (·.columns)
        = .ok (exLines ["C0", "C1"])) ∧
    -- units: the line becomes a row
    ((read exT {} (exLines ["t,a", "(s),(m)", "1,2"])).map (·.data.length) = .ok 1 ∧
      ((read exT {} (exLines ["t,a", "(s),(m)", "1,2"])).bind (read exT · (exLines ["t,a", "(s),(m)", "1,2"]))).map (·.data.length)
        = .ok 2) ∧
    -- another file: the separator of the first is kept
    ((read exT {} (exLines ["1;2", "3;4"])).map (·.columns.length) = .ok 2 ∧
      ((read exT {} (exLines ["1,2", "3,4"])).bind (read exT · (exLines ["1;2", "3;4"]))).map (·.columns.length) = .ok 1) := by
  decide +kernel

end Verif.Csv
