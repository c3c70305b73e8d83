import Verif.Lemmas.WndFile
import Verif.Lemmas.Str
import Verif.Props.Csv
import Verif.Props.AsciiComp
import Verif.Py.Dec
/-!
# Deterministic wind files

Properties C235 to C237.
-/
namespace Verif.WndFile
open Verif.Py Verif.Csv

/-- **C235**: a wind file gives the table of its numbers: the words of each line up to an
exclamation mark, line by line, under the eight names with units; short lines are filled up with
missing values.  If the first line of data has another number of values, the names are numbered. -/
theorem C235_table (T : Txt) (l0 : Str) (ls r : List Str) (rs : List (List Str)) (h : Wnd T l0 ls r rs) :
    ∃ o, read T new (l0 :: ls) = .ok o ∧
      (toDataFrame o).2 = ((r :: rs).map fun x => x.map some ++ List.replicate (r.length - x.length) none) ∧
      (r.length = 8 → (toDataFrame o).1 = wndNames) ∧
      (r.length ≠ 8 → (toDataFrame o).1 = (List.range r.length).map fun i => 'C' :: (toString i).toList) := by
  have hrd := read_eq T l0 ls r rs h.first h.nl h.rows
  rw [if_neg (by
    rw [Bool.not_eq_true, List.any_eq_false]
    intro x hx
    simpa using h.width x hx)] at hrd
  refine ⟨_, hrd, rfl, fun h8 => ?_, fun h8 => ?_⟩
  · simp only [toDataFrame, if_pos h8]
  · simp only [toDataFrame, if_neg h8]; rfl

/-- **C235**: a line with more values than the first one is refused -/
theorem C235_long (T : Txt) (l0 : Str) (ls r : List Str) (rs : List (List Str)) (hf : First T l0)
    (hq : ∀ l ∈ l0 :: ls, '"' ∉ l) (hr : rows (l0 :: ls) = r :: rs) (x : List Str) (hx : x ∈ rs) (hl : r.length < x.length) :
    read T new (l0 :: ls) = .error .wrongFormat := by
  rw [read_eq T l0 ls r rs hf hq hr, if_pos]
  rw [List.any_eq_true]
  exact ⟨x, hx, by simpa using hl⟩

/-- texts of numbers for the examples -/
def exTxt : Txt := ⟨fun _ => false, fun s => s.all Char.isDigit, fun s => s.all Char.isAlpha⟩

/-- a file with two lines of comments and two of numbers -/
def exFile : List Str :=
  ["! Wind file".toList, "! Time\tSpeed".toList, "0 8 0 0 0 0.2 0 0".toList, "9.5\t10 0 0 0 0.2 0 0 ! end".toList]

theorem exWnd : Wnd exTxt "! Wind file".toList ["! Time\tSpeed".toList, "0 8 0 0 0 0.2 0 0".toList, "9.5\t10 0 0 0 0.2 0 0 ! end".toList]
    (["0", "8", "0", "0", "0", "0.2", "0", "0"].map String.toList) [["9.5", "10", "0", "0", "0", "0.2", "0", "0"].map String.toList] := by
  refine ⟨⟨by decide +kernel, ?_⟩, by decide +kernel, by decide +kernel, by decide +kernel⟩
  intro w0 w1 r hw
  have : words "! Wind file".toList = ["!".toList, "Wind".toList, "file".toList] := by decide +kernel
  rw [this] at hw
  cases hw
  decide +kernel

example : (read exTxt new exFile).map toDataFrame = .ok (wndNames,
    [["0", "8", "0", "0", "0", "0.2", "0", "0"].map (some ∘ String.toList), ["9.5", "10", "0", "0", "0", "0.2", "0", "0"].map (some ∘ String.toList)]) := by
  decide +kernel

/-- **C236** fails: a text file with a tab in its first line is refused as binary, whatever the
rest -/
theorem C236_fails (T : Txt) (o : Obj) (a b : Str) (ls : List Str) (ha : '\n' ∉ a) :
    read T o ((a ++ '\t' :: b) :: ls) = .error .wrongFormat := by
  rw [read, binary_tab a b ls ha, if_pos rfl]

/-- **C236**: files whose first line has no tabs and control characters are accepted.
(Missing for the full property: tabs in the first line.) -/
theorem C236_partial (T : Txt) (l0 : Str) (ls r : List Str) (rs : List (List Str)) (h : Wnd T l0 ls r rs) :
    ∃ o, read T new (l0 :: ls) = .ok o := by
  obtain ⟨o, ho, -⟩ := C235_table T l0 ls r rs h
  exact ⟨o, ho⟩

example : '\n' ∉ "0".toList ∧ rows ["0\t8\t0\t0\t0\t0.2\t0\t0".toList] = [["0", "8", "0", "0", "0", "0.2", "0", "0"].map String.toList] := by
  decide +kernel

/-- **C237** fails: a file without comments, read and written again, starts with a line of names
with tabs between them, and is refused -/
theorem C237_fails (T : Txt) (l0 : Str) (ls r : List Str) (rs : List (List Str)) (h : Wnd T l0 ls r rs) (h8 : r.length = 8)
    (hc : (strip l0).head? ≠ some '!') :
    ∃ o lines, read T new (l0 :: ls) = .ok o ∧ write o = .ok lines ∧ read T new lines = .error .wrongFormat := by
  have hcm : commented '!' 100 (l0 :: ls) = [] := by rw [commented, if_neg hc]
  have hl : joinWith ['\t'] (wndNames.map (quote '\t')) = "Time_[s]".toList ++ '\t' :: joinWith ['\t'] (wndNames.drop 1) := by decide +kernel
  have hrd := read_eq T l0 ls r rs h.first h.nl h.rows
  rw [if_neg (by
    rw [Bool.not_eq_true, List.any_eq_false]
    intro x hx
    simpa using h.width x hx), if_pos h8] at hrd
  refine ⟨_, ("Time_[s]".toList ++ '\t' :: joinWith ['\t'] (wndNames.drop 1)) ::
      toCsv '\t' (((r :: rs).map fun x => x.map some ++ List.replicate (r.length - x.length) none).map (·.map cellText)), hrd, ?_, ?_⟩
  · rw [write, Csv.write]
    simp only [hcm, List.length_nil, gt_iff_lt, Nat.lt_irrefl, if_false]
    rw [toCsv, List.map_cons, hl]
    rfl
  · exact C236_fails T new _ _ _ (by decide)

example : Wnd exTxt "0 8 0 0 0 0.2 0 0".toList [] (["0", "8", "0", "0", "0", "0.2", "0", "0"].map String.toList) [] ∧
    (strip "0 8 0 0 0 0.2 0 0".toList).head? ≠ some '!' := by
  refine ⟨⟨⟨by decide +kernel, ?_⟩, by decide +kernel, by decide +kernel, by decide +kernel⟩, by decide +kernel⟩
  intro w0 w1 r hw
  have : words "0 8 0 0 0 0.2 0 0".toList = ["0", "8", "0", "0", "0", "0.2", "0", "0"].map String.toList := by decide +kernel
  rw [this] at hw
  cases hw
  decide +kernel

/-- **C237**: a file that starts with a comment comes back with the same table, if its lines are
equally long.  (Missing for the full property: files without comments.) -/
theorem C237_partial (T : Txt) (l0 : Str) (ls r : List Str) (rs : List (List Str)) (h : Wnd T l0 ls r rs)
    (hn : ∀ x ∈ rs, x.length = r.length) (hc : (strip l0).head? = some '!') :
    ∃ o lines o', read T new (l0 :: ls) = .ok o ∧ write o = .ok lines ∧ read T new lines = .ok o' ∧
      toDataFrame o' = toDataFrame o := by
  have hrd := read_eq T l0 ls r rs h.first h.nl h.rows
  have hany : ¬ (rs.any fun x => decide (r.length < x.length)) = true := by
    rw [Bool.not_eq_true, List.any_eq_false]
    intro x hx
    simpa using h.width x hx
  rw [if_neg hany] at hrd
  have hcm : commented '!' 100 (l0 :: ls) = strip l0 :: commented '!' 99 ls := by rw [commented, if_pos hc]
  have hdata : ((r :: rs).map fun x => x.map some ++ List.replicate (r.length - x.length) (none : Cell)) =
      (r :: rs).map (fun x => x.map (some : Str → Cell)) := by
    apply List.map_congr_left
    intro x hx
    rcases List.mem_cons.1 hx with rfl | hx
    · simp
    · simp [hn x hx]
  have hcell : ∀ x : List Str, (x.map (some : Str → Cell)).map cellText = x := by
    intro x
    rw [List.map_map]
    exact (List.map_congr_left (g := id) (fun w _ => rfl)).trans (List.map_id x)
  have hw : ∀ x ∈ r :: rs, ∀ w ∈ x, IsWord w ∧ '"' ∉ w ∧ '!' ∉ w := by
    intro x hx w hwx
    have hx' : x ∈ rows (l0 :: ls) := by rw [h.rows]; exact hx
    obtain ⟨h1, l, hl, h2⟩ := rows_chars _ x hx' w hwx
    exact ⟨rows_words _ x hx' w hwx, fun hm => h.nl l hl (h2 _ hm), h1⟩
  have hq : ∀ x ∈ r :: rs, x.map (quote '\t') = x := by
    intro x hx
    refine (List.map_congr_left (g := id) ?_).trans (List.map_id x)
    intro w hwx
    obtain ⟨⟨-, h1⟩, h2, -⟩ := hw x hx w hwx
    rw [quote, if_neg]
    · rfl
    · rintro (e | e | e | e)
      · exact absurd (h1 _ e) (by decide)
      · exact h2 e
      · exact absurd (h1 _ e) (by decide)
      · exact absurd (h1 _ e) (by decide)
  have hlines : toCsv '\t' (((r :: rs).map fun x => x.map some ++ List.replicate (r.length - x.length) (none : Cell)).map (·.map cellText)) =
      (r :: rs).map (joinWith ['\t']) := by
    rw [hdata, toCsv, List.map_map, List.map_map]
    apply List.map_congr_left
    intro x hx
    simp only [Function.comp_apply]
    rw [hcell, hq x hx]
  have hx0 : ∀ x ∈ r :: rs, x ≠ [] := by
    intro x hx
    have : x ∈ rows (l0 :: ls) := by rw [h.rows]; exact hx
    rw [rows, List.mem_filter] at this
    simpa using this.2
  have hrows : rows (strip l0 :: (commented '!' 99 ls ++ (r :: rs).map (joinWith ['\t']))) = r :: rs := by
    rw [← List.cons_append, ← hcm, rows, List.map_append, List.filter_append]
    have e1 : ((commented '!' 100 (l0 :: ls)).map fun l => words (l.takeWhile (· ≠ '!'))).filter (· ≠ []) = [] := by
      rw [List.filter_eq_nil_iff]
      intro x hx
      obtain ⟨l, hl, rfl⟩ := List.mem_map.1 hx
      have := (commented_mem 100 (l0 :: ls)).1 l hl
      cases l with
      | nil => cases this
      | cons c l =>
        cases this
        simp [words, wordsAux]
    have e2 : ((r :: rs).map (joinWith ['\t'])).map (fun l => words (l.takeWhile (· ≠ '!'))) = r :: rs := by
      rw [List.map_map]
      refine (List.map_congr_left (g := id) ?_).trans (List.map_id (r :: rs))
      intro x hx
      simp only [Function.comp_apply, id_eq]
      rw [takeWhile_all, words_join_tab x (fun w hwx => (hw x hx w hwx).1)]
      intro c hc
      rcases mem_join_tab x c hc with rfl | ⟨w, hwx, hcw⟩
      · decide
      · exact decide_eq_true (fun (e : c = '!') => (hw x hx w hwx).2.2 (e ▸ hcw))
    rw [e1, e2, List.nil_append, List.filter_eq_self]
    intro x hx
    simpa using hx0 x hx
  have hmem : ∀ c ∈ strip l0, c ∈ l0 := fun c hc => AsciiComp.strip_mem l0 c hc
  have hf : First T (strip l0) := ⟨fun c hc => h.first.text c (hmem c hc), fun w0 w1 q hw => h.first.csv w0 w1 q (by rwa [words_strip] at hw)⟩
  have hcom : ∀ n ls', (∀ l ∈ ls', '"' ∉ l) → ∀ l ∈ commented '!' n ls', '"' ∉ l := by
    intro n
    induction n with
    | zero => intro ls' _ l hl; simp [commented] at hl
    | succ n ih =>
      intro ls' hls l hl
      cases ls' with
      | nil => simp [commented] at hl
      | cons a ls' =>
        rw [commented] at hl
        split at hl
        · rcases List.mem_cons.1 hl with rfl | hl
          · exact fun hm => hls a (by simp) (AsciiComp.strip_mem a _ hm)
          · exact ih ls' (fun l hl => hls l (by simp [hl])) l hl
        · cases hl
  have hquo : ∀ l ∈ strip l0 :: (commented '!' 99 ls ++ (r :: rs).map (joinWith ['\t'])), '"' ∉ l := by
    intro l hl
    rcases List.mem_cons.1 hl with rfl | hl
    · exact fun hm => h.nl l0 (by simp) (hmem _ hm)
    rcases List.mem_append.1 hl with hl | hl
    · exact hcom 99 ls (fun l hl => h.nl l (by simp [hl])) l hl
    · obtain ⟨x, hx, rfl⟩ := List.mem_map.1 hl
      intro hm
      rcases mem_join_tab x _ hm with e | ⟨w, hwx, hcw⟩
      · exact absurd e (by decide)
      · exact (hw x hx w hwx).2.1 hcw
  have hrd2 := read_eq T (strip l0) _ r rs hf hquo hrows
  rw [if_neg hany] at hrd2
  refine ⟨_, strip l0 :: (commented '!' 99 ls ++ (r :: rs).map (joinWith ['\t'])), _, hrd, ?_, hrd2, rfl⟩
  rw [write, Csv.write]
  simp only [hlines]
  rw [hcm, if_pos (by simp)]
  rfl

-- the file of the first example starts with a comment

example : (strip "! Wind file".toList).head? = some '!' ∧
    ((read exTxt new exFile).toOption.bind fun o => (write o).toOption) =
      some ["! Wind file".toList, "! Time\tSpeed".toList, "0\t8\t0\t0\t0\t0.2\t0\t0".toList, "9.5\t10\t0\t0\t0\t0.2\t0\t0".toList] := by
  decide +kernel

end Verif.WndFile
