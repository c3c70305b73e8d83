import Verif.Lemmas.St
import Verif.Lemmas.HawcAe
import Verif.Lemmas.Yaml
import Verif.Py.Fmt
import Mathlib.Data.List.Forall2
import Mathlib.Tactic
/-! # Properties of HAWC2 st files -/
namespace Verif.St
open Verif.Py
open Verif.HawcAe (dset dget padLeft)
open Verif.Rosco (fitRow)

/-- whole numbers only -/
def toy : Num Int where
  flt w := if FastLine.strIsInt w then some (FastLine.pyInt w) else none
  int w := if FastLine.strIsInt w then some (FastLine.pyInt w) else none

/-- the row of the numbers 1 to 19 -/
def row19 : Str := "1 2 3 4 5 6 7 8 9 10 11 12 13 14 15 16 17 18 19".toList

/-- the numbers 1 to 19 -/
def nums19 : List Int := [1, 2, 3, 4, 5, 6, 7, 8, 9, 10, 11, 12, 13, 14, 15, 16, 17, 18, 19]

/-- **C110** A file of main sets with different numbers, with sets of different numbers and rows of
numbers, the last of 19 or 30 columns, is read as these main sets, these sets and these rows, in the order
of the file. -/
theorem C110 {F : Type} (φ : Num F) (pre : Str) (ms : List (MainText F)) (hp : '#' ∉ pre) (h : ∀ m ∈ ms, m.Ok φ)
    (hn : (ms.map MainText.nr).Nodup) (cols : List Str)
    (hl : (LastWidth ms 19 ∧ cols = stc) ∨ (LastWidth ms 30 ∧ cols = fpm)) :
    read φ (fileText pre ms) =
      .ok ⟨ms.map (fun m => (m.nr, m.sets.map (fun s => (s.nr, s.rows)))), cols⟩ := by
  have hm := mainLoop_ok φ ms h [] [] none
  simp only [List.append_nil, mainLoop] at hm
  rw [foldl_dset_new _ [] (by simpa [MainText.entry, Function.comp_def] using hn), List.nil_append] at hm
  unfold read
  rw [splitOn_file φ pre ms hp h, hm]
  rcases hl with ⟨hl, rfl⟩ | ⟨hl, rfl⟩
  · obtain ⟨r, t, hrt, hk⟩ := read_last φ ms h _ hl
    simp only [hrt, Option.or_none, hk]
    rfl
  · obtain ⟨r, t, hrt, hk⟩ := read_last φ ms h _ hl
    simp only [hrt, Option.or_none, hk]
    rfl

/-- **C111** A set announced with more rows than there are lines up to the next mark or the end of the file
is refused with an IndexError. -/
theorem C111_short {F : Type} (φ : Num F) (pre : Str) (ms : List (MainText F)) (hp : '#' ∉ pre) (h : ∀ m ∈ ms, m.Ok φ)
    (m : MainText F) (hm : m.Ok φ) (first : Str) (ls : List Str) (rest : Str)
    (hr : EndsSet rest) (hl : PlainLines (first :: ls)) (n k : Int) (hf : HeadSays φ first n k) (hnew : n ∉ m.sets.map SetText.nr)
    (hk : ls.length < k) :
    read φ (fileText pre (ms ++ [m]) ++ '$' :: joinWith ['\n'] (first :: ls) ++ rest) = .error .index := by
  refine read_badSet φ pre ms hp h m hm _ rest hl.text hr _ (fun q last => ?_)
  rw [setLoop, splitOn_lines first ls (fun l hl' => (hl l hl').2.2)]
  simp only [List.headD_cons, header_ok φ _ _ _ hf]
  rw [if_neg (by simpa [SetText.entry] using hnew), rowLines, if_pos (by simp; omega)]

/-- **C111** A text in a row of numbers which is no number is refused with a ValueError. -/
theorem C111_text {F : Type} (φ : Num F) (pre : Str) (ms : List (MainText F)) (hp : '#' ∉ pre) (h : ∀ m ∈ ms, m.Ok φ)
    (m : MainText F) (hm : m.Ok φ) (first : Str) (ls : List Str) (rest : Str)
    (hr : EndsSet rest) (hl : PlainLines (first :: ls)) (n : Int) (k : Nat) (hf : HeadSays φ first n k) (hnew : n ∉ m.sets.map SetText.nr)
    (hk : k ≤ ls.length) (a : Str) (hsemi : ';' ∉ a) (c : Str) (hc : c = [] ∨ ∃ t, c = ';' :: t) (hrow : a ++ c ∈ ls.take k)
    (w : Str) (hw : w ∈ words a) (hbad : φ.flt w = none) :
    read φ (fileText pre (ms ++ [m]) ++ '$' :: joinWith ['\n'] (first :: ls) ++ rest) = .error .value := by
  refine read_badSet φ pre ms hp h m hm _ rest hl.text hr _ (fun q last => ?_)
  rw [setLoop, splitOn_lines first ls (fun l hl' => (hl l hl').2.2)]
  simp only [List.headD_cons, header_ok φ _ _ _ hf]
  rw [if_neg (by simpa [SetText.entry] using hnew), rowLines_take first ls k hk]
  have hcell : cells (a ++ c) = words a := by
    unfold cells
    rcases hc with rfl | ⟨t, rfl⟩
    · rw [List.append_nil, splitOn_noSep ';' a hsemi]
      rfl
    · rw [splitOn_append ';' a t hsemi]
      rfl
  simp only [array_bad φ _ ⟨words a, List.mem_map.2 ⟨_, hrow, hcell⟩, w, hw, hbad⟩]

/-- **C111** Two rows of a set with different numbers of columns are refused with a ValueError. -/
theorem C111_ragged {F : Type} (φ : Num F) (pre : Str) (ms : List (MainText F)) (hp : '#' ∉ pre) (h : ∀ m ∈ ms, m.Ok φ)
    (m : MainText F) (hm : m.Ok φ) (first : Str) (ls : List Str) (rest : Str)
    (hr : EndsSet rest) (hl : PlainLines (first :: ls)) (n : Int) (k : Nat) (hf : HeadSays φ first n k) (hnew : n ∉ m.sets.map SetText.nr)
    (hk : k ≤ ls.length) (a b : Str) (ha : a ∈ ls.take k) (hb : b ∈ ls.take k) (hsa : ';' ∉ a) (hsb : ';' ∉ b)
    (hab : (words a).length ≠ (words b).length) :
    read φ (fileText pre (ms ++ [m]) ++ '$' :: joinWith ['\n'] (first :: ls) ++ rest) = .error .value := by
  refine read_badSet φ pre ms hp h m hm _ rest hl.text hr _ (fun q last => ?_)
  rw [setLoop, splitOn_lines first ls (fun l hl' => (hl l hl').2.2)]
  simp only [List.headD_cons, header_ok φ _ _ _ hf]
  rw [if_neg (by simpa [SetText.entry] using hnew), rowLines_take first ls k hk]
  have hc : ∀ x, ';' ∉ x → cells x = words x := fun x hx => by
    unfold cells
    rw [splitOn_noSep ';' x hx]
    rfl
  simp only [array_ragged φ _ (words a) (words b) (List.mem_map.2 ⟨_, ha, hc a hsa⟩) (List.mem_map.2 ⟨_, hb, hc b hsb⟩) hab]

/-- **C111** A set whose number another set of the main set has already is refused with an AssertionError. -/
theorem C111_again {F : Type} (φ : Num F) (pre : Str) (ms : List (MainText F)) (hp : '#' ∉ pre) (h : ∀ m ∈ ms, m.Ok φ)
    (m : MainText F) (hm : m.Ok φ) (first : Str) (ls : List Str) (rest : Str)
    (hr : EndsSet rest) (hl : PlainLines (first :: ls)) (n k : Int) (hf : HeadSays φ first n k) (hold : n ∈ m.sets.map SetText.nr) :
    read φ (fileText pre (ms ++ [m]) ++ '$' :: joinWith ['\n'] (first :: ls) ++ rest) = .error .assertion := by
  refine read_badSet φ pre ms hp h m hm _ rest hl.text hr _ (fun q last => ?_)
  rw [setLoop, splitOn_lines first ls (fun l hl' => (hl l hl').2.2)]
  simp only [List.headD_cons, header_ok φ _ _ _ hf]
  rw [if_pos (by simpa [SetText.entry] using hold)]

/-- **C111** A dollar which is not followed by two whole numbers is refused with a ValueError. -/
theorem C111_header {F : Type} (φ : Num F) (pre : Str) (ms : List (MainText F)) (hp : '#' ∉ pre) (h : ∀ m ∈ ms, m.Ok φ)
    (m : MainText F) (hm : m.Ok φ) (first : Str) (ls : List Str) (rest : Str)
    (hr : EndsSet rest) (hl : PlainLines (first :: ls)) (hf : ¬ ∃ n k, HeadSays φ first n k) :
    read φ (fileText pre (ms ++ [m]) ++ '$' :: joinWith ['\n'] (first :: ls) ++ rest) = .error .value := by
  refine read_badSet φ pre ms hp h m hm _ rest hl.text hr _ (fun q last => ?_)
  rw [setLoop, splitOn_lines first ls (fun l hl' => (hl l hl').2.2)]
  have : header φ first = .error .value := by
    unfold header
    match hw : words first with
    | [] => rfl
    | [_] => rfl
    | a :: b :: t =>
      simp only [List.take_succ_cons, List.take_zero]
      cases ha : φ.int a with
      | none => rfl
      | some n =>
        cases hb : φ.int b with
        | none => rfl
        | some k => exact absurd ⟨n, k, a, b, t, hw, ha, hb⟩ hf
  simp only [List.headD_cons, this]

/-- **C111** A file whose last set has rows of neither 19 nor 30 numbers is refused with a TypeError. -/
theorem C111_width {F : Type} (φ : Num F) (pre : Str) (ms : List (MainText F)) (hp : '#' ∉ pre) (h : ∀ m ∈ ms, m.Ok φ)
    (k : Nat) (hl : LastWidth ms k) (h1 : k ≠ 19) (h2 : k ≠ 30) :
    read φ (fileText pre ms) = .error .type := by
  have hm := mainLoop_ok φ ms h [] [] none
  simp only [List.append_nil, mainLoop] at hm
  unfold read
  rw [splitOn_file φ pre ms hp h, hm]
  obtain ⟨r, t, hrt, hk⟩ := read_last φ ms h _ hl
  simp only [hrt, Option.or_none, hk, colsOf]
  rw [if_neg (show k ≠ stc.length from h1), if_neg (show k ≠ fpm.length from h2)]

/-- **C111** A file without any set is refused. -/
theorem C111_none {F : Type} (φ : Num F) (pre : Str) (ms : List (MainText F)) (hp : '#' ∉ pre) (h : ∀ m ∈ ms, m.Ok φ)
    (h0 : ∀ m ∈ ms, m.sets = []) :
    read φ (fileText pre ms) = .error .unbound := by
  have hm := mainLoop_ok φ ms h [] [] none
  simp only [List.append_nil, mainLoop] at hm
  unfold read
  have : ms.flatMap MainText.sets = [] := by
    rw [List.flatMap_eq_nil_iff]
    exact h0
  rw [splitOn_file φ pre ms hp h, hm, this]
  rfl

/-- **C112** A file which ends after a line of its last set before the announced rows are complete is
refused. -/
theorem C112 {F : Type} (φ : Num F) (pre : Str) (ms : List (MainText F)) (hp : '#' ∉ pre) (h : ∀ m ∈ ms, m.Ok φ)
    (m : MainText F) (hm : m.Ok φ) (s : SetText F) (hs : s.Ok φ)
    (hnew : s.nr ∉ m.sets.map SetText.nr) (hw : ∀ r ∈ s.rows, r ≠ []) (j : Nat) (hj : j < s.rows.length) (e : List Str)
    (he : e = [] ∨ e = [[]]) :
    ∃ err, read φ (fileText pre (ms ++ [m]) ++ '$' :: joinWith ['\n'] (s.first :: (s.lines.take j ++ e))) = .error err := by
  obtain ⟨h1, h2, h3, h4⟩ := hs
  have hlen := h3.length_eq
  have hpl : PlainLines (s.first :: (s.lines.take j ++ e)) := by
    intro l hl
    rcases List.mem_cons.1 hl with rfl | hl
    · exact h1 _ (by simp)
    rcases List.mem_append.1 hl with hl | hl
    · exact h1 _ (by simp [List.mem_of_mem_take hl])
    · rcases he with rfl | rfl
      · simp at hl
      · rw [List.mem_singleton.1 hl]
        simp
  by_cases hsh : (s.lines.take j ++ e).length < s.rows.length
  · refine ⟨.index, ?_⟩
    have := C111_short φ pre ms hp h m hm s.first (s.lines.take j ++ e) [] (.inl rfl) hpl _ _ h2 hnew (by exact_mod_cast hsh)
    simpa using this
  · rcases he with rfl | rfl
    · exfalso
      apply hsh
      simp
      omega
    have hjk : s.rows.length = j + 1 := by
      simp at hsh
      omega
    cases j with
    | zero =>
      -- one row was announced: an empty one is read
      refine ⟨.type, ?_⟩
      have hok : SetText.Ok φ ⟨s.first, [[]], [], s.nr, [[]]⟩ := by
        refine ⟨fun l hl => hpl l (by simpa using hl), ?_, .cons ⟨[], .inl rfl, by simp, .nil⟩ .nil, 0, by simp⟩
        rw [hjk] at h2
        exact h2
      have := C111_width φ pre (ms ++ [⟨m.line, m.between, m.nr, m.sets ++ [⟨s.first, [[]], [], s.nr, [[]]⟩]⟩]) hp (by
          intro m' hm'
          rcases List.mem_append.1 hm' with hm' | hm'
          · exact h m' hm'
          · rw [List.mem_singleton.1 hm']
            refine ⟨hm.1, hm.2.1, hm.2.2.1, ?_, ?_⟩
            · intro s' hs'
              rcases List.mem_append.1 hs' with hs' | hs'
              · exact hm.2.2.2.1 s' hs'
              · rw [List.mem_singleton.1 hs']
                exact hok
            · rw [List.map_append, List.nodup_append]
              refine ⟨hm.2.2.2.2, by simp, ?_⟩
              intro a ha b hb hab
              simp at hb
              exact hnew (by rw [← hb, ← hab]; exact ha))
        0 ⟨⟨s.first, [[]], [], s.nr, [[]]⟩, by simp, [], [], rfl, rfl⟩ (by decide) (by decide)
      simpa [fileText, MainText.text, SetText.text, joinWith] using this
    | succ j =>
      refine ⟨.value, ?_⟩
      obtain ⟨l, ls, hls⟩ : ∃ l ls, s.lines = l :: ls := by
        cases hls : s.lines with
        | nil => rw [hls] at hlen; simp at hlen; omega
        | cons l ls => exact ⟨l, ls, rfl⟩
      refine (fun hx => by simpa using hx) (read_badSet φ pre ms hp h m hm _ [] hpl.text (.inl rfl) .value (fun q last => ?_))
      rw [setLoop, splitOn_lines s.first _ (fun l hl' => (hpl l hl').2.2)]
      simp only [List.headD_cons, header_ok φ _ _ _ h2]
      rw [if_neg (by simpa [SetText.entry] using hnew), rowLines_take s.first _ _ (by simp; omega)]
      have hc := cells_rows φ _ _ h3
      rw [hls] at hc
      cases hrows : s.rows with
      | nil => rw [hrows] at hj; simp at hj
      | cons r rs =>
        rw [List.map_cons, hrows] at hc
        cases hc with
        | cons hc1 _ =>
          have hne : (cells l).length ≠ (cells []).length := by
            rw [hc1.length_eq]
            have := hw r (by simp [hrows])
            cases r with
            | nil => exact absurd rfl this
            | cons => simp [cells, splitOn, words, wordsAux]
          have hl2 : s.lines.length = j + 2 := by omega
          have : (s.lines.take (j + 1) ++ [[]]).take s.rows.length = s.lines.take (j + 1) ++ [[]] := by
            apply List.take_of_length_le
            simp
            omega
          rw [← hrows, this]
          simp only [array_ragged φ ((s.lines.take (j + 1) ++ [[]]).map cells) (cells l) (cells []) (List.mem_map.2 ⟨l, by simp [hls], rfl⟩)
            (List.mem_map.2 ⟨[], by simp, rfl⟩) hne]

/-- **C113** is violated: of two main sets with the same number, only the later is found. -/
theorem C113_fails : read toy ("#1\n$1 1\n".toList ++ row19 ++ "\n#1\n$2 1\n".toList ++ row19) = .ok ⟨[(1, [(2, [nums19])])], stc⟩ := by
  decide +kernel

/-- **C113** The sets found under a number are those of the last main set of this number. -/
theorem C113_partial {F : Type} (φ : Num F) (pre : Str) (ms : List (MainText F)) (hp : '#' ∉ pre) (h : ∀ m ∈ ms, m.Ok φ)
    (hl : LastWidth ms 19 ∨ LastWidth ms 30) :
    ∃ o, read φ (fileText pre ms) = .ok o ∧
      ∀ ms1 m ms2, ms = ms1 ++ m :: ms2 → m.nr ∉ ms2.map MainText.nr →
        dget o.main m.nr = some (m.sets.map (fun s => (s.nr, s.rows))) := by
  have hm := mainLoop_ok φ ms h [] [] none
  simp only [List.append_nil, mainLoop] at hm
  have hread : ∃ cols, read φ (fileText pre ms) = .ok ⟨(ms.map MainText.entry).foldl (fun d e => dset d e.1 e.2) [], cols⟩ := by
    unfold read
    rw [splitOn_file φ pre ms hp h, hm]
    rcases hl with hl | hl
    · obtain ⟨r, t, hrt, hk⟩ := read_last φ ms h _ hl
      refine ⟨stc, ?_⟩
      simp only [hrt, Option.or_none, hk]
      rfl
    · obtain ⟨r, t, hrt, hk⟩ := read_last φ ms h _ hl
      refine ⟨fpm, ?_⟩
      simp only [hrt, Option.or_none, hk]
      rfl
  obtain ⟨cols, hread⟩ := hread
  refine ⟨_, hread, ?_⟩
  intro ms1 m ms2 hms hnot
  rw [dget_foldl, hms, List.map_append, List.map_cons, List.filter_append, List.filter_cons_of_pos (by simp [MainText.entry])]
  have : (ms2.map MainText.entry).filter (fun e => e.1 = m.nr) = [] := by
    rw [List.filter_eq_nil_iff]
    intro e he
    obtain ⟨m', hm', rfl⟩ := List.mem_map.1 he
    simp only [decide_eq_true_eq]
    exact fun h => hnot (List.mem_map.2 ⟨m', hm', h⟩)
  rw [this]
  simp [MainText.entry, SetText.entry]

/-- **C114** is violated: only the columns of the last set are counted, and an object is read whose
`toDataFrame` raises a ValueError. -/
theorem C114_fails : ∃ o, read toy ("#1\n$1 1\n1 2 3\n$2 1\n".toList ++ row19) = .ok o ∧ getSet o 1 1 = .ok [[1, 2, 3]] ∧
    (toDataFrame o).isOk = false :=
  ⟨⟨[(1, [(1, [[1, 2, 3]]), (2, [nums19])])], stc⟩, by decide +kernel⟩

/-- **C115** What `save` writes is read back as the same main sets, sets and numbers, when the text of every
number starts with a blank. -/
theorem C115_partial {F : Type} (φ : Num F) (hint : ∀ n, φ.int (showInt n) = some n) (fmt : F → Str) (w : Nat) (o : Obj F)
    (ho : Saveable o) (hx : ∀ m ∈ o.main, ∀ s ∈ m.2, ∀ r ∈ s.2, ∀ x ∈ r, Prints φ fmt x) :
    read φ (save fmt w o) = .ok o := by
  obtain ⟨hn, hm, s, hs, r, t, hrt, hcols⟩ := ho
  have hc : o.cols = stc ∨ o.cols = fpm := by
    rcases hcols with h | h
    · exact .inl h.2
    · exact .inr h.2
  rw [save_text fmt w o (fun m hm' s hs => ((hm m hm').2 s hs).1)]
  have hlast : LastWidth (o.main.map (mainOf fmt w o.cols)) r.length := by
    have he : ((o.main.map (mainOf fmt w o.cols)).flatMap MainText.sets).map SetText.entry = o.main.flatMap Prod.snd := by
      rw [List.flatMap_map, List.map_flatMap]
      apply List.flatMap_congr
      intro m _
      exact setsOf_entry fmt w o.cols m.2
    rw [← he, List.getLast?_map] at hs
    cases hq : ((o.main.map (mainOf fmt w o.cols)).flatMap MainText.sets).getLast? with
    | none => rw [hq] at hs; cases hs
    | some s' =>
      rw [hq] at hs
      injection hs with hs
      exact ⟨s', hq, r, t, by rw [← hrt, ← hs]; rfl, rfl⟩
  rw [C110 φ _ (o.main.map (mainOf fmt w o.cols)) ?_ ?_ ?_ o.cols ?_]
  · congr 1
    cases o with
    | mk main cols =>
      congr 1
      rw [List.map_map]
      conv_rhs => rw [← List.map_id main]
      apply List.map_congr_left
      intro m _
      have := setsOf_entry fmt w cols m.2
      simp only [Function.comp, mainOf, id]
      rw [show (fun s : SetText F => (s.nr, s.rows)) = SetText.entry from rfl, this]
  · have := showInt_plain o.main.length '#' (by simp)
    simp only [List.mem_append, not_or]
    exact ⟨this, by decide⟩
  · intro m' hm'
    obtain ⟨m, hmm, rfl⟩ := List.mem_map.1 hm'
    exact mainOf_ok φ hint fmt w o.cols hc m (hm m hmm).1 (fun s hs => ((hm m hmm).2 s hs).2) (hx m hmm)
  · rw [List.map_map]
    exact hn
  · rcases hcols with ⟨h, h'⟩ | ⟨h, h'⟩
    · exact .inl ⟨h ▸ hlast, h'⟩
    · exact .inr ⟨h ▸ hlast, h'⟩

/-- the file saved by `HAWC2StFile` is accepted by the check of its first lines -/
theorem C115_file {F : Type} (φ : Num F) (hint : ∀ n, φ.int (showInt n) = some n) (fmt : F → Str) (w : Nat) (o : Obj F)
    (ho : Saveable o) (hx : ∀ m ∈ o.main, ∀ s ∈ m.2, ∀ r ∈ s.2, ∀ x ∈ r, Prints φ fmt x)
    (hfirst : ∃ m ms s ss, o.main = (m, s :: ss) :: ms) :
    readFile φ (save fmt w o) = .ok o := by
  have hread := C115_partial φ hint fmt w o ho hx
  obtain ⟨hn, hm, s', hs, r, t, hrt, hcols⟩ := ho
  have hc : o.cols = stc ∨ o.cols = fpm := by
    rcases hcols with h | h
    · exact .inl h.2
    · exact .inr h.2
  obtain ⟨m, ms, s, ss, hmain⟩ := hfirst
  unfold readFile
  have hb := bars_plain w o.cols hc
  have hsplit : ∃ l0 l1 l2 l3 l4 l5 rest, splitOn '\n' (save fmt w o) =
      l0 :: ('#' :: l1) :: l2 :: l3 :: l4 :: ('$' :: l5) :: rest := by
    have htext : ∃ rest, save fmt w o = (showInt o.main.length ++ " ; number of sets, Nset".toList) ++ '\n' ::
        (('#' :: (showInt m ++ " ; set number".toList)) ++ '\n' :: (List.replicate (w * o.cols.length) '=' ++ '\n' ::
          (o.cols.flatMap (center w) ++ '\n' :: (List.replicate (w * o.cols.length) '=' ++ '\n' ::
            (('$' :: (showInt s.1 ++ ' ' :: showInt s.2.length)) ++ '\n' :: rest))))) := by
      refine ⟨?_, ?_⟩
      rotate_left
      · unfold save
        rw [hmain]
        simp only [List.flatMap_cons, List.append_assoc, List.cons_append, List.nil_append]
        rfl
    obtain ⟨rest, htext⟩ := htext
    have hi := fun n => showInt_plain n '\n' (by simp)
    have := congrArg (splitOn '\n') htext
    rw [splitOn_append '\n' _ _ (by
        simp only [List.mem_append, not_or]
        exact ⟨hi _, by decide⟩), splitOn_append '\n' _ _ (by
        simp only [List.mem_append, List.mem_cons, not_or]
        exact ⟨by decide, hi _, by decide⟩), splitOn_append '\n' _ _ (hb _ (by simp [bars])).2.2,
      splitOn_append '\n' _ _ (hb _ (by simp [bars])).2.2, splitOn_append '\n' _ _ (hb _ (by simp [bars])).2.2,
      splitOn_append '\n' _ _ (by
        simp only [List.mem_append, List.mem_cons, not_or]
        exact ⟨by decide, hi _, by decide, hi _⟩)] at this
    exact ⟨_, _, _, _, _, _, splitOn '\n' rest, this⟩
  obtain ⟨l0, l1, l2, l3, l4, l5, rest, hsplit⟩ := hsplit
  simp only [hsplit]
  rw [if_pos (by simp [startsWith])]
  exact hread

/-- a row of 19 numbers, one of them minus 10 to the power 100 -/
def bigRow : List ℚ := [0, -10 ^ 100, 0, 0, 0, 0, 0, 0, 0, 0, 0, 0, 0, 0, 0, 0, 0, 0, 0]

/-- `'%15.07e' % x` -/
def fmt15 (x : ℚ) : Str := padLeft 15 (sci 7 x)

/-- **C115** is violated: the text of -1e100 fills its 15 characters and runs into the number before it, so
that the saved file cannot be read, whatever `float` makes of the text. -/
theorem C115_fails (φ : Num ℚ) (hint : ∀ n, φ.int (showInt n) = some n) :
    read φ (save fmt15 15 ⟨[(1, [(1, [bigRow])])], stc⟩) = .error .value ∨
    read φ (save fmt15 15 ⟨[(1, [(1, [bigRow])])], stc⟩) = .error .type := by
  have h1 : φ.int ['1'] = some 1 := hint 1
  have hsplit : save fmt15 15 ⟨[(1, [(1, [bigRow])])], stc⟩ =
      fileText (F := ℚ) "1 ; number of sets, Nset\n".toList ([] ++ [⟨"1 ; set number".toList, joinWith ['\n'] (bars 15 stc), 1, []⟩]) ++
        '$' :: joinWith ['\n'] ("1 1".toList :: [rowText fmt15 bigRow, []]) ++ [] := by
    decide +kernel
  have hb := bars_plain 15 stc (.inl rfl)
  have hm : MainText.Ok φ ⟨"1 ; set number".toList, joinWith ['\n'] (bars 15 stc), 1, []⟩ :=
    ⟨⟨by decide, by decide⟩, hb.text, ⟨['1'], _, rfl, h1⟩, by simp, by simp⟩
  have hf : HeadSays φ "1 1".toList 1 1 := ⟨['1'], ['1'], [], rfl, h1, h1⟩
  have hpl : PlainLines ("1 1".toList :: [rowText fmt15 bigRow, []]) := by
    intro l hl
    simp only [List.mem_cons, List.not_mem_nil, or_false] at hl
    rcases hl with rfl | rfl | rfl
    · decide
    · decide +kernel
    · simp
  by_cases hw : ∃ w ∈ words (rowText fmt15 bigRow), φ.flt w = none
  · obtain ⟨w, hw, hnone⟩ := hw
    left
    rw [hsplit]
    exact C111_text φ _ [] (by decide) (by simp) _ hm _ _ _ (.inl rfl) hpl 1 1 hf (by simp) (by simp) (rowText fmt15 bigRow)
      (by decide +kernel) [] (.inl rfl) (by simp) w hw hnone
  · right
    have hall : ∃ xs, List.Forall₂ (fun w x => φ.flt w = some x) (words (rowText fmt15 bigRow)) xs := by
      generalize words (rowText fmt15 bigRow) = ws at hw
      induction ws with
      | nil => exact ⟨[], .nil⟩
      | cons a t ih =>
        obtain ⟨xs, hxs⟩ := ih (fun ⟨w, hw', hn⟩ => hw ⟨w, by simp [hw'], hn⟩)
        cases ha : φ.flt a with
        | none => exact absurd ⟨a, by simp, ha⟩ hw
        | some x => exact ⟨x :: xs, .cons ha hxs⟩
    obtain ⟨xs, hxs⟩ := hall
    have hlen : xs.length = 18 := by
      rw [← hxs.length_eq]
      decide +kernel
    have := C111_width φ "1 ; number of sets, Nset\n".toList
      [⟨"1 ; set number".toList, joinWith ['\n'] (bars 15 stc), 1, [⟨"1 1".toList, [rowText fmt15 bigRow], [[]], 1, [xs]⟩]⟩] (by decide)
      (by
        intro m hm'
        rw [List.mem_singleton.1 hm']
        refine ⟨hm.1, hm.2.1, hm.2.2.1, ?_, by simp⟩
        intro s hs
        rw [List.mem_singleton.1 hs]
        exact ⟨hpl, hf, .cons ⟨_, .inl rfl, by decide +kernel, hxs⟩ .nil, xs.length, by simp⟩) 18
      ⟨_, rfl, xs, [], rfl, hlen⟩ (by decide) (by decide)
    rw [hsplit, ← this]
    simp [fileText, MainText.text, SetText.text]

/-- **C116** There is one data frame for each set, in the order of the object, named by the number of the
main set and of the set, with the rows of the set under the names for 19 or 30 columns. -/
theorem C116 {F : Type} (o : Obj F) (h : ∀ m ∈ o.main, ∀ s ∈ m.2, s.2 ≠ [] ∧ ((∀ r ∈ s.2, r.length = 19) ∨ ∀ r ∈ s.2, r.length = 30)) :
    toDataFrame o = .ok (o.main.flatMap (fun m => m.2.map (fun s =>
      (showInt m.1 ++ '_' :: showInt s.1, if ∀ r ∈ s.2, r.length = 19 then colReg else colFpm, s.2)))) := by
  unfold toDataFrame
  rw [mapM_except _ (fun t => (showInt t.1 ++ '_' :: showInt t.2.1, if ∀ r ∈ t.2.2, r.length = 19 then colReg else colFpm, t.2.2))]
  · rw [List.map_flatMap]
    simp only [List.map_map]
    rfl
  · intro t ht
    obtain ⟨m, hm, ht⟩ := List.mem_flatMap.1 ht
    obtain ⟨s, hs, rfl⟩ := List.mem_map.1 ht
    obtain ⟨h0, hw⟩ := h m hm s hs
    have : frame s.2 = .ok (if ∀ r ∈ s.2, r.length = 19 then colReg else colFpm, s.2) := by
      cases hr : s.2 with
      | nil => exact absurd hr h0
      | cons r t =>
        rw [hr] at hw
        unfold frame
        rcases hw with hw | hw
        · have h19 := hw r (by simp)
          rw [if_pos hw]
          simp only [h19, if_true]
          rfl
        · have h30 := hw r (by simp)
          rw [if_neg (fun h => by have := h r (by simp); omega)]
          simp only [h30]
          rfl
    simp only [this]
    rfl

/-- **C116** Different sets have data frames of different names. -/
theorem C116_names (m s m' s' : Int) (h : frameName m s = frameName m' s') : m = m' ∧ s = s' := by
  have h1 := congrArg (splitOn '_') h
  unfold frameName at h1
  rw [splitOn_append _ _ _ (showInt_under m), splitOn_append _ _ _ (showInt_under m'), splitOn_noSep _ _ (showInt_under s),
    splitOn_noSep _ _ (showInt_under s')] at h1
  injection h1 with h1 h2
  injection h2 with h2 _
  exact ⟨showInt_inj _ _ h1, showInt_inj _ _ h2⟩

/-- **C117** Without a radius, the function of a column gives the numbers of the column. -/
theorem C117_all (o : Obj ℚ) (m s : Int) (rows : List (List ℚ)) (h : BeamSet o m s rows) (c : Nat) (name : Str)
    (hc : o.cols[c]? = some name) : queryAll o name m s = .ok (rows.map (fun r => r.getD c 0)) :=
  queryAll_width o m s rows h.1 h.2.1 _ h.2.2.1 h.2.2.2.1 h.2.2.2.2 c (List.getElem?_eq_some_iff.1 hc).1 name hc

/-- **C117** Between the radii of two rows, the function of a column gives the straight line between the two
numbers of the column. -/
theorem C117_between (o : Obj ℚ) (m s : Int) (rows : List (List ℚ)) (h : BeamSet o m s rows) (c : Nat) (name : Str)
    (hc : o.cols[c]? = some name) (i : Nat) (a b : List ℚ) (ha : rows[i]? = some a) (hb : rows[i + 1]? = some b) (x : ℚ)
    (h1 : a.getD 0 0 ≤ x) (h2 : x ≤ b.getD 0 0) :
    query o name x m s = .ok (a.getD c 0 + (b.getD c 0 - a.getD c 0) * ((x - a.getD 0 0) / (b.getD 0 0 - a.getD 0 0))) :=
  query_eq o m s rows h c name hc _ _ (interp_between x _ i _ _ _ _ (by rw [fst_map]; exact h.2.2.2.1)
    (by rw [List.getElem?_map, ha]; rfl) (by rw [List.getElem?_map, hb]; rfl) h1 h2)

/-- **C117** Inboard of the first row and outboard of the last, the function of a column gives the number of
that row. -/
theorem C117_outside (o : Obj ℚ) (m s : Int) (rows : List (List ℚ)) (h : BeamSet o m s rows) (c : Nat) (name : Str)
    (hc : o.cols[c]? = some name) (a b : List ℚ) (ha : rows.head? = some a) (hb : rows.getLast? = some b) (x : ℚ) :
    (x ≤ a.getD 0 0 → query o name x m s = .ok (a.getD c 0)) ∧ (b.getD 0 0 ≤ x → query o name x m s = .ok (b.getD c 0)) := by
  constructor
  · intro hx
    refine query_eq o m s rows h c name hc _ _ (interp_left x _ _ _ (by rw [fst_map]; exact h.2.2.2.1) ?_ hx)
    rw [List.getElem?_map, ← List.head?_eq_getElem?, ha]
    rfl
  · intro hx
    refine query_eq o m s rows h c name hc _ _ (interp_right x _ _ _ (by rw [fst_map]; exact h.2.2.2.1) ?_ hx)
    rw [List.getLast?_map, hb]
    rfl

/-- **C117** A set which is not in the file is a KeyError, a name which is no column an AttributeError. -/
theorem C117_missing (o : Obj ℚ) (name : Str) (x : ℚ) (m s : Int) :
    (name ∉ o.cols → query o name x m s = .error .attribute) ∧
    (name ∈ o.cols → (∀ sets, (m, sets) ∈ o.main → s ∉ sets.map Prod.fst) → query o name x m s = .error .key) := by
  constructor
  · intro h
    unfold query
    rw [if_neg h]
  · intro h hs
    unfold query
    rw [if_pos h, valueAt, getSet]
    have : (dget o.main m).bind (fun sets => dget sets s) = none := by
      cases hd : dget o.main m with
      | none => rfl
      | some sets =>
        unfold dget at hd
        cases hf : o.main.find? (fun p => p.1 = m) with
        | none => rw [hf] at hd; cases hd
        | some p =>
          rw [hf] at hd
          injection hd with hd
          have hp := List.find?_some hf
          have hmem := List.mem_of_find?_eq_some hf
          simp only [decide_eq_true_eq] at hp
          have := hs sets (by rw [← hd, ← hp]; exact hmem)
          rw [Option.bind_some, dget, Option.map_eq_none_iff, List.find?_eq_none]
          intro q hq he
          simp only [decide_eq_true_eq] at he
          exact this (List.mem_map.2 ⟨q, hq, he⟩)
    rw [this]

/-- **C117** The radius found for a radius is one of the rows, and none is nearer. -/
theorem C117_nearest (o : Obj ℚ) (m s : Int) (rows : List (List ℚ)) (h : BeamSet o m s rows) (x : ℚ) :
    ∃ r ∈ rows, nearest o m s x = .ok (r.getD 0 0) ∧ ∀ r' ∈ rows, |r.getD 0 0 - x| ≤ |r'.getD 0 0 - x| := by
  obtain ⟨h1, h2, h3, h4, h5⟩ := h
  obtain ⟨hnd, hpos⟩ := cols_facts o.cols h5
  cases rows with
  | nil => exact absurd rfl h2
  | cons r t =>
    unfold nearest radii
    simp only [h1, column_ok (r :: t) _ 0 h2 h3 hpos]
    rw [show (default : ℚ) = 0 from rfl]
    obtain ⟨hm, hle⟩ := argmin_le (fun a => |a - x|) (r.getD 0 0) (t.map (fun r => r.getD 0 0))
    rw [← List.map_cons (f := fun r : List ℚ => r.getD 0 0)] at hm hle
    obtain ⟨r', hr', he⟩ := List.mem_map.1 hm
    refine ⟨r', hr', ?_, ?_⟩
    · rw [List.map_cons]
      simp only
      rw [he]
    · intro q hq
      have := hle _ (List.mem_map.2 ⟨q, hq, rfl⟩)
      rw [← he] at this
      exact this

/-- rows of 30 columns -/
def row30 : Str := row19 ++ " 20 21 22 23 24 25 26 27 28 29 30".toList

/-- rational numbers from whole numbers -/
def toyQ : Num ℚ where
  flt w := if FastLine.strIsInt w then some (FastLine.pyInt w : ℚ) else none
  int w := if FastLine.strIsInt w then some (FastLine.pyInt w) else none

/-- **C118** is violated: in a file of a set of 19 columns and a last set of 30 columns, the function `pitch`
gives for the first set the number of its column 7, which is `x_sh`, and there is no function `E`. -/
theorem C118_fails : ∃ o, read toyQ ("#1\n$1 1\n".toList ++ row19 ++ "\n$2 1\n".toList ++ row30) = .ok o ∧
    query o "pitch".toList 1 1 1 = .ok 7 ∧ stc.idxOf "pitch".toList = 16 ∧ query o "E".toList 1 1 1 = .error .attribute :=
  ⟨⟨[(1, [(1, [[1, 2, 3, 4, 5, 6, 7, 8, 9, 10, 11, 12, 13, 14, 15, 16, 17, 18, 19]]),
      (2, [[1, 2, 3, 4, 5, 6, 7, 8, 9, 10, 11, 12, 13, 14, 15, 16, 17, 18, 19, 20, 21, 22, 23, 24, 25, 26, 27, 28, 29, 30]])])], fpm⟩,
    by decide +kernel⟩

/-- **C118** The functions of the first six columns, which are the same in both forms, give the numbers of
these columns in sets of both forms. -/
theorem C118_partial (o : Obj ℚ) (m s : Int) (rows : List (List ℚ)) (h : getSet o m s = .ok rows) (h0 : rows ≠ []) (k : Nat)
    (hk : k = 19 ∨ k = 30) (hw : ∀ r ∈ rows, r.length = k) (hi : Increasing (rows.map (fun r => r.getD 0 0)))
    (hcols : o.cols = stc ∨ o.cols = fpm) (c : Nat) (name : Str)
    (hc : (c, name) ∈ (["r", "m", "x_cg", "y_cg", "ri_x", "ri_y"].map String.toList).zipIdx.map Prod.swap) :
    queryAll o name m s = .ok (rows.map (fun r => r.getD c 0)) := by
  have hcn : c < 6 ∧ o.cols[c]? = some name := by
    have h1 : ∀ p ∈ (["r", "m", "x_cg", "y_cg", "ri_x", "ri_y"].map String.toList).zipIdx.map Prod.swap,
        p.1 < 6 ∧ stc[p.1]? = some p.2 ∧ fpm[p.1]? = some p.2 := by decide +kernel
    obtain ⟨h2, h3, h4⟩ := h1 _ hc
    rcases hcols with h5 | h5
    · exact ⟨h2, by rw [h5]; exact h3⟩
    · exact ⟨h2, by rw [h5]; exact h4⟩
  exact queryAll_width o m s rows h h0 k hw hi hcols c (by omega) name hcn.2

/-- **C119** `set_value` of a column with as many numbers as there are rows: the set then has these numbers
in this column, its other columns are as before, and so are all other sets. -/
theorem C119 {F : Type} (o : Obj F) (m s : Int) (rows : List (List F)) (h : getSet o m s = .ok rows) (h0 : rows ≠ []) (k : Nat)
    (hk : ∀ r ∈ rows, r.length = k) (hcols : o.cols = stc ∨ o.cols = fpm) (c : Nat) (name : Str) (hc : o.cols[c]? = some name)
    (hck : c < k) (v : List F) (hv : v.length = rows.length) :
    ∃ o' rows', setValue o m s name v = .ok o' ∧ o'.cols = o.cols ∧ getSet o' m s = .ok rows' ∧ rows'.length = rows.length ∧
      (∀ i (hi : i < rows.length), ∀ j, (rows'[i]?.bind (fun r => r[j]?)) = if j = c then v[i]? else rows[i][j]?) ∧
      ∀ m' s', (m', s') ≠ (m, s) → getSet o' m' s' = getSet o m' s' := by
  obtain ⟨sets, hm, hs⟩ := getSet_some o m s rows h
  obtain ⟨hnd, -⟩ := cols_facts o.cols hcols
  obtain ⟨hlt, hcn⟩ := List.getElem?_eq_some_iff.1 hc
  have hidx : o.cols.idxOf name = c := by
    rw [← hcn]
    exact hnd.idxOf_getElem c hlt
  have hset : setColumn rows c v = .ok (List.zipWith (fun r x => r.set c x) rows v) := by
    cases rows with
    | nil => exact absurd rfl h0
    | cons r t =>
      simp only [setColumn]
      rw [if_pos (by rw [hk r (by simp)]; exact hck)]
      unfold fitRow
      rw [if_pos hv]
  refine ⟨⟨dset o.main m (dset sets s (List.zipWith (fun r x => r.set c x) rows v)), o.cols⟩,
    List.zipWith (fun r x => r.set c x) rows v, ?_, ?_, ?_, ?_, ?_, ?_⟩
  · unfold setValue
    rw [if_pos (List.mem_of_getElem? hc), hm]
    simp only [hs, hidx, hset]
  · rfl
  · unfold getSet
    simp only [dget_dset, if_true, Option.bind_some]
  · simp [hv]
  · intro i hi j
    have hvi : i < v.length := by omega
    rw [List.getElem?_zipWith, List.getElem?_eq_getElem hi, List.getElem?_eq_getElem hvi]
    simp only [Option.bind_some]
    by_cases hj : j = c
    · subst hj
      rw [if_pos rfl, List.getElem?_set_self (by rw [hk _ (List.getElem_mem hi)]; exact hck)]
    · rw [if_neg hj, List.getElem?_set_ne (fun h => hj h.symm)]
  · intro m' s' hne
    unfold getSet
    simp only [dget_dset]
    by_cases hmm : m' = m
    · subst hmm
      have hss : s' ≠ s := fun h => hne (by rw [h])
      rw [if_pos rfl, hm]
      simp only [Option.bind_some, dget_dset, if_neg hss]
    · rw [if_neg hmm]

/-- **C119** One number is set in all rows, as if it were given for each. -/
theorem C119_one {F : Type} (o : Obj F) (m s : Int) (rows : List (List F)) (h : getSet o m s = .ok rows) (name : Str) (x : F) :
    setValue o m s name [x] = setValue o m s name (List.replicate rows.length x) := by
  obtain ⟨sets, hm, hs⟩ := getSet_some o m s rows h
  unfold setValue
  simp only [hm, hs]
  have : setColumn rows (o.cols.idxOf name) [x] = setColumn rows (o.cols.idxOf name) (List.replicate rows.length x) := by
    cases rows with
    | nil => rfl
    | cons r t =>
      simp only [setColumn]
      have h1 : fitRow (r :: t).length (List.replicate (r :: t).length x) = some (List.replicate (r :: t).length x) := by
        unfold fitRow
        rw [if_pos (by simp)]
      have h2 : fitRow (r :: t).length [x] = some (List.replicate (r :: t).length x) := by
        unfold fitRow
        split
        · rename_i hl
          rw [← hl]
          rfl
        · rfl
      rw [h1, h2]
  rw [this]

/-- **C119** A name which is no column is a ValueError, a set which is not there a KeyError, and numbers which
are neither one nor as many as the rows a ValueError. -/
theorem C119_errors {F : Type} (o : Obj F) (m s : Int) (name : Str) (v : List F) :
    (name ∉ o.cols → setValue o m s name v = .error .value) ∧
    (name ∈ o.cols → getSet o m s = .error .key → setValue o m s name v = .error .key) ∧
    (∀ rows k, name ∈ o.cols → getSet o m s = .ok rows → rows ≠ [] → (∀ r ∈ rows, r.length = k) → o.cols.length ≤ k →
      v.length ≠ 1 → v.length ≠ rows.length → setValue o m s name v = .error .value) := by
  refine ⟨fun h => ?_, fun h hs => ?_, fun rows k h hs h0 hk hck h1 h2 => ?_⟩
  · unfold setValue
    rw [if_neg h]
  · unfold setValue
    rw [if_pos h]
    unfold getSet at hs
    cases hm : dget o.main m with
    | none => rfl
    | some sets =>
      rw [hm] at hs
      simp only [Option.bind_some] at hs
      cases hd : dget sets s with
      | none => simp [hd]
      | some rows => rw [hd] at hs; cases hs
  · obtain ⟨sets, hm, hd⟩ := getSet_some o m s rows hs
    unfold setValue
    rw [if_pos h, hm]
    simp only [hd]
    have : setColumn rows (o.cols.idxOf name) v = .error .value := by
      cases rows with
      | nil => exact absurd rfl h0
      | cons r t =>
        have hi := List.idxOf_lt_length_of_mem h
        simp only [setColumn]
        rw [if_pos (by rw [hk r (by simp)]; omega)]
        have : fitRow (r :: t).length v = none := by
          unfold fitRow
          rw [if_neg h2]
          match v, h1 with
          | [], _ => rfl
          | [_], h1 => exact absurd rfl h1
          | _ :: _ :: _, _ => rfl
        rw [this]
    rw [this]

/-! Examples -/

/-- a set of two rows, the first with a comment -/
def exSet (n : Int) : SetText Int :=
  ⟨showInt n ++ " 2 rows".toList, [row19 ++ " ; note".toList, row19], ["=====".toList, []], n, [nums19, nums19]⟩

theorem exRow : RowSays toy row19 nums19 := ⟨_, .inl rfl, by decide +kernel, forall₂_of_mapM _ _ _ (by decide +kernel)⟩

theorem exSetOk (n : Int) (h : n = 1 ∨ n = 2) : (exSet n).Ok toy := by
  have h1 : ∀ n : Int, n = 1 ∨ n = 2 → (∀ l ∈ (exSet n).first :: ((exSet n).lines ++ (exSet n).more), '#' ∉ l ∧ '$' ∉ l ∧ '\n' ∉ l) ∧
      words (exSet n).first = [showInt n, ['2'], "rows".toList] ∧ toy.int (showInt n) = some n := by
    rintro n (rfl | rfl) <;> decide +kernel
  obtain ⟨h2, h3, h4⟩ := h1 n h
  exact ⟨h2, ⟨_, _, _, h3, h4, show toy.int ['2'] = some 2 by decide +kernel⟩,
    .cons ⟨row19 ++ [' '], .inr ⟨" note".toList, by decide +kernel⟩, by decide +kernel, forall₂_of_mapM _ _ _ (by decide +kernel)⟩
      (.cons exRow .nil), 19, by simp [exSet]; rfl⟩

/-- a file of two main sets -/
def exMains : List (MainText Int) := [⟨"1 blade".toList, "===\n".toList, 1, [exSet 1, exSet 2]⟩, ⟨" 2".toList, [], 2, [exSet 1]⟩]

theorem exMainsOk : ∀ m ∈ exMains, m.Ok toy := by
  intro m hm
  simp only [exMains, List.mem_cons, List.not_mem_nil, or_false] at hm
  rcases hm with rfl | rfl
  · refine ⟨by decide, by decide, ⟨['1'], ["blade".toList], by decide +kernel, by decide +kernel⟩, ?_, by decide⟩
    intro s hs
    simp only [List.mem_cons, List.not_mem_nil, or_false] at hs
    rcases hs with rfl | rfl
    · exact exSetOk 1 (.inl rfl)
    · exact exSetOk 2 (.inr rfl)
  · refine ⟨by decide, by decide, ⟨['2'], [], by decide +kernel, by decide +kernel⟩, ?_, by decide⟩
    intro s hs
    rw [List.mem_singleton.1 hs]
    exact exSetOk 1 (.inl rfl)

example : read toy (fileText "2 sets\n".toList exMains) =
    .ok ⟨[(1, [(1, [nums19, nums19]), (2, [nums19, nums19])]), (2, [(1, [nums19, nums19])])], stc⟩ :=
  C110 toy _ exMains (by decide) exMainsOk (by decide) stc (.inl ⟨⟨exSet 1, rfl, nums19, _, rfl, rfl⟩, rfl⟩)

theorem exInit : ∀ m ∈ exMains.take 1, m.Ok toy := fun m hm => exMainsOk m (List.mem_of_mem_take hm)

theorem exLast : MainText.Ok toy ⟨" 2".toList, [], 2, [exSet 1]⟩ := exMainsOk _ (by simp [exMains])

/-- three rows announced, one line there, then another set -/
example : read toy (fileText [] (exMains.take 1 ++ [⟨" 2".toList, [], 2, [exSet 1]⟩]) ++
    '$' :: joinWith ['\n'] ("3 3".toList :: [row19]) ++ "$4 1".toList) = .error .index :=
  C111_short toy [] _ (by simp) exInit _ exLast "3 3".toList [row19] _ (.inr ⟨_, .inl rfl⟩)
    (by unfold PlainLines; decide +kernel) 3 3 ⟨['3'], ['3'], [], by decide +kernel, by decide +kernel, by decide +kernel⟩ (by decide) (by decide)

/-- a word in a row -/
example : read toy (fileText [] (exMains.take 1 ++ [⟨" 2".toList, [], 2, [exSet 1]⟩]) ++
    '$' :: joinWith ['\n'] ("3 1".toList :: ["1 2 x ;".toList]) ++ "#4".toList) = .error .value :=
  C111_text toy [] _ (by simp) exInit _ exLast "3 1".toList ["1 2 x ;".toList] _ (.inr ⟨_, .inr rfl⟩)
    (by unfold PlainLines; decide +kernel) 3 1 ⟨['3'], ['1'], [], by decide +kernel, by decide +kernel, by decide +kernel⟩ (by decide) (by decide)
    "1 2 x ".toList (by decide) [';'] (.inr ⟨_, rfl⟩) (by decide) ['x'] (by decide +kernel) (by decide +kernel)

/-- rows of three and of two numbers -/
example : read toy (fileText [] (exMains.take 1 ++ [⟨" 2".toList, [], 2, [exSet 1]⟩]) ++
    '$' :: joinWith ['\n'] ("3 2".toList :: ["1 2 3".toList, "1 2".toList]) ++ []) = .error .value :=
  C111_ragged toy [] _ (by simp) exInit _ exLast "3 2".toList ["1 2 3".toList, "1 2".toList] _ (.inl rfl)
    (by unfold PlainLines; decide +kernel) 3 2 ⟨['3'], ['2'], [], by decide +kernel, by decide +kernel, by decide +kernel⟩ (by decide) (by decide)
    "1 2 3".toList "1 2".toList (by decide) (by decide) (by decide) (by decide) (by decide +kernel)

/-- set 1 again -/
example : read toy (fileText [] (exMains.take 1 ++ [⟨" 2".toList, [], 2, [exSet 1]⟩]) ++
    '$' :: joinWith ['\n'] ("1 1".toList :: [row19]) ++ []) = .error .assertion :=
  C111_again toy [] _ (by simp) exInit _ exLast "1 1".toList [row19] _ (.inl rfl)
    (by unfold PlainLines; decide +kernel) 1 1 ⟨['1'], ['1'], [], by decide +kernel, by decide +kernel, by decide +kernel⟩ (by decide)

/-- no number of rows -/
example : read toy (fileText [] (exMains.take 1 ++ [⟨" 2".toList, [], 2, [exSet 1]⟩]) ++
    '$' :: joinWith ['\n'] ("3".toList :: [row19]) ++ []) = .error .value :=
  C111_header toy [] _ (by simp) exInit _ exLast "3".toList [row19] _ (.inl rfl) (by unfold PlainLines; decide +kernel) (by
    rintro ⟨n, k, a, b, t, h, -⟩
    rw [show words "3".toList = ["3".toList] by decide +kernel] at h
    cases h)

/-- a last set of two columns -/
example : read toy (fileText [] [⟨"1".toList, [], 1, [exSet 1, ⟨"2 1".toList, ["5 6".toList], [[]], 2, [[5, 6]]⟩]⟩]) = .error .type :=
  C111_width toy [] _ (by simp) (by
    intro m hm
    rw [List.mem_singleton.1 hm]
    refine ⟨by decide, by decide, ⟨['1'], [], by decide +kernel, by decide +kernel⟩, ?_, by decide⟩
    intro s hs
    simp only [List.mem_cons, List.not_mem_nil, or_false] at hs
    rcases hs with rfl | rfl
    · exact exSetOk 1 (.inl rfl)
    · exact ⟨by decide +kernel, ⟨['2'], ['1'], [], by decide +kernel, by decide +kernel, by decide +kernel⟩,
        .cons ⟨_, .inl rfl, by decide, forall₂_of_mapM _ _ _ (by decide +kernel)⟩ .nil, 2, by decide⟩) 2
    ⟨_, rfl, _, _, rfl, rfl⟩ (by decide) (by decide)

example : read toy (fileText (F := Int) "title".toList [⟨"1".toList, "text".toList, 1, []⟩]) = .error .unbound :=
  C111_none toy _ _ (by decide) (by
    intro m hm
    rw [List.mem_singleton.1 hm]
    exact ⟨by decide, by decide, ⟨['1'], [], by decide +kernel, by decide +kernel⟩, by simp, by simp⟩) (by simp)

/-- the second row is missing -/
example : ∃ err, read toy (fileText [] (exMains.take 1 ++ [⟨" 2".toList, [], 2, [exSet 1]⟩]) ++
    '$' :: joinWith ['\n'] ((exSet 2).first :: ((exSet 2).lines.take 1 ++ [[]]))) = .error err :=
  C112 toy [] _ (by simp) exInit _ exLast (exSet 2) (exSetOk 2 (.inr rfl)) (by decide) (by decide) 1 (by decide) [[]] (.inr rfl)

/-- two main sets with the number 1 -/
example : ∃ o, read toy (fileText [] [⟨"1".toList, [], 1, [exSet 1]⟩, ⟨"1".toList, [], 1, [exSet 2]⟩]) = .ok o ∧
    dget o.main 1 = some [(2, [nums19, nums19])] := by
  have hok : ∀ n, n = 1 ∨ n = 2 → MainText.Ok toy ⟨"1".toList, [], 1, [exSet n]⟩ := fun n hn =>
    ⟨⟨show '#' ∉ "1".toList by decide, show '$' ∉ "1".toList by decide⟩, ⟨List.not_mem_nil, List.not_mem_nil⟩,
      ⟨['1'], [], show words "1".toList = [['1']] by decide +kernel, show toy.int ['1'] = some 1 by decide +kernel⟩, by
      intro s hs
      rw [List.mem_singleton.1 hs]
      exact exSetOk n hn, by simp⟩
  obtain ⟨o, h1, h2⟩ := C113_partial toy [] [⟨"1".toList, [], 1, [exSet 1]⟩, ⟨"1".toList, [], 1, [exSet 2]⟩] (by simp) (by
    intro m hm
    simp only [List.mem_cons, List.not_mem_nil, or_false] at hm
    rcases hm with rfl | rfl
    · exact hok 1 (.inl rfl)
    · exact hok 2 (.inr rfl)) (.inl ⟨exSet 2, rfl, nums19, _, rfl, rfl⟩)
  exact ⟨o, h1, h2 [_] ⟨"1".toList, [], 1, [exSet 2]⟩ [] rfl (by simp)⟩

/-- the object of the file above -/
def exObj : Obj Int := ⟨[(1, [(1, [nums19, nums19]), (2, [nums19])]), (2, [(1, [nums19])])], stc⟩

/-- a blank and the number -/
def exFmt (n : Int) : Str := ' ' :: showInt n

theorem exPrints (n : Int) : Prints toy exFmt n :=
  ⟨0, showInt n, rfl, isWord_showInt n, showInt_plain n _ (by simp), showInt_plain n _ (by simp), showInt_plain n _ (by simp), by
    simp only [toy, showInt]
    rw [if_pos (FastLine.strIsInt_showInt n), FastLine.pyInt_showInt]⟩

theorem exSaveable : Saveable exObj := by
  have h : ∀ m ∈ exObj.main, (m.2.map Prod.fst).Nodup ∧ ∀ s ∈ m.2, s.2 ≠ [] ∧ ∀ r ∈ s.2, r.length = 19 := by decide +kernel
  refine ⟨by decide, fun m hm => ⟨(h m hm).1, fun s hs => ⟨((h m hm).2 s hs).1, 19, ((h m hm).2 s hs).2⟩⟩, (1, [nums19]), rfl, nums19, [], rfl, .inl ⟨rfl, rfl⟩⟩

example : readFile toy (save exFmt 4 exObj) = .ok exObj :=
  C115_file toy (fun n => by
    simp only [toy, showInt]
    rw [if_pos (FastLine.strIsInt_showInt n), FastLine.pyInt_showInt]) exFmt 4 exObj exSaveable (fun _ _ _ _ _ _ x _ => exPrints x)
    ⟨_, _, _, _, rfl⟩

example : toDataFrame exObj = .ok [("1_1".toList, colReg, [nums19, nums19]), ("1_2".toList, colReg, [nums19]), ("2_1".toList, colReg, [nums19])] := by
  rw [C116 exObj (by decide +kernel)]
  decide +kernel

/-- two sections, at 1 and 3 -/
def exBeam : Obj ℚ := ⟨[(1, [(1, [nums19.map (fun n => (n : ℚ)), nums19.map (fun n => 3 * (n : ℚ))])])], stc⟩

theorem exBeamSet : BeamSet exBeam 1 1 [nums19.map (fun n => (n : ℚ)), nums19.map (fun n => 3 * (n : ℚ))] :=
  ⟨rfl, by simp, by decide +kernel, by decide +kernel, .inl rfl⟩

example : queryAll exBeam "E".toList 1 1 = .ok [9, 27] := by
  rw [C117_all exBeam 1 1 _ exBeamSet 8 _ (by decide +kernel)]
  decide +kernel

example : query exBeam "E".toList 2 1 1 = .ok 18 := by
  rw [C117_between exBeam 1 1 _ exBeamSet 8 _ (by decide +kernel) 0 _ _ rfl rfl 2 (by decide +kernel) (by decide +kernel)]
  decide +kernel

example : query exBeam "E".toList 5 1 1 = .ok 27 := by
  rw [(C117_outside exBeam 1 1 _ exBeamSet 8 _ (by decide +kernel) _ _ rfl rfl 5).2 (by decide +kernel)]
  decide +kernel

example : query exBeam "E".toList 5 1 2 = .error .key :=
  (C117_missing exBeam _ 5 1 2).2 (by decide +kernel) (by
    intro sets h
    simp only [exBeam, List.mem_singleton, Prod.mk.injEq, true_and] at h
    rw [h]
    simp)

example : ∃ r ∈ [nums19.map (fun n => (n : ℚ)), nums19.map (fun n => 3 * (n : ℚ))], nearest exBeam 1 1 (5 / 2) = .ok (r.getD 0 0) ∧
    ∀ r' ∈ [nums19.map (fun n => (n : ℚ)), nums19.map (fun n => 3 * (n : ℚ))], |r.getD 0 0 - 5 / 2| ≤ |r'.getD 0 0 - 5 / 2| :=
  C117_nearest exBeam 1 1 _ exBeamSet (5 / 2)

example : queryAll exBeam "x_cg".toList 1 1 = .ok [3, 9] := by
  rw [C118_partial exBeam 1 1 _ rfl (by simp) 19 (.inl rfl) (by decide +kernel) (by decide +kernel) (.inl rfl) 2 _ (by decide +kernel)]
  decide +kernel

example : ∃ o' rows', setValue exObj 1 1 "m".toList [70, 80] = .ok o' ∧ getSet o' 1 1 = .ok rows' ∧
    rows'[1]?.bind (fun r => r[1]?) = some 80 ∧ getSet o' 2 1 = .ok [nums19] := by
  obtain ⟨o', rows', h1, -, h2, -, h3, h4⟩ := C119 exObj 1 1 [nums19, nums19] rfl (by simp) 19 (by decide) (.inl rfl) 1 "m".toList
    (by decide +kernel) (by decide) [70, 80] rfl
  exact ⟨o', rows', h1, h2, h3 1 (by decide) 1, h4 2 1 (by decide)⟩

example : setValue exObj 1 1 "m".toList [1, 2, 3] = .error .value :=
  (C119_errors exObj 1 1 "m".toList [1, 2, 3]).2.2 [nums19, nums19] 19 (by decide +kernel) rfl (by simp) (by decide) (by decide +kernel)
    (by decide) (by decide)

end Verif.St
