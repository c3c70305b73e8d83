import Verif.Lemmas.FlexPro
import Verif.Py.Dec
import Mathlib.Data.List.Forall2
import Mathlib.Tactic
/-!
# FLEX profile files — C99, C100, C101, C102

`/repo/weio/flex_profile_file.py`.
-/
namespace Verif.FlexPro
open Verif.Py
open Verif.Rosco (fitRow)

/-- **C99** From a FLEX profile file — sets of any number of thicknesses and angles, one after the
other, and at most three further lines — exactly the titles, thicknesses, polar headers and
coefficients written are read. -/
theorem C99 {F : Type} (φ : Num F) (ss : List SetText) (vs : List (PSet F)) (h : List.Forall₂ (SetText.Ok φ) ss vs) (h0 : ss ≠ [])
    (tail : List Str) (ht : tail.length < 4) :
    read φ (ss.flatMap SetText.lines ++ tail) = .ok vs := by
  unfold read
  have := flat_len ss
  rw [readSets_ok φ ss vs h _ true tail (by rw [List.length_append]; omega)]
  have e : ss.isEmpty = false := by cases ss <;> simp_all
  rw [e, Bool.and_false]
  obtain ⟨k, hk⟩ : ∃ k, (ss.flatMap SetText.lines ++ tail).length + 1 - ss.length = k + 1 := by
    refine ⟨(ss.flatMap SetText.lines ++ tail).length - ss.length, ?_⟩
    rw [List.length_append]; omega
  rw [hk, readSets_short φ k tail ht]
  simp [Except.map]

/-- **C100** A FLEX profile file which ends early never gives a set with missing rows or polars: it is
refused when it ends among the polars of a set (`BrokenFormatError`) or among the first four lines
(`WrongFormatError`); when it ends among the first four lines of a later set exactly the sets before
are read. -/
theorem C100 {F : Type} (φ : Num F) (ss : List SetText) (vs : List (PSet F)) (h : List.Forall₂ (SetText.Ok φ) ss vs)
    (s : SetText) (v : PSet F) (hs : s.Ok φ v) (m : Nat) (hm : m < s.lines.length) :
    read φ (ss.flatMap SetText.lines ++ s.lines.take m) =
      if 4 ≤ m then .error .broken else if ss = [] then .error .wrong else .ok vs := by
  by_cases h4 : 4 ≤ m
  · rw [if_pos h4]
    unfold read
    have := flat_len ss
    rw [readSets_ok φ ss vs h _ true _ (by rw [List.length_append]; omega)]
    obtain ⟨k, hk⟩ : ∃ k, (ss.flatMap SetText.lines ++ s.lines.take m).length + 1 - ss.length = k + 1 := by
      refine ⟨(ss.flatMap SetText.lines ++ s.lines.take m).length - ss.length, ?_⟩
      rw [List.length_append]; omega
    rw [hk, readSets]
    obtain ⟨j, rfl⟩ : ∃ j, m = j + 4 := ⟨m - 4, by omega⟩
    obtain ⟨n, hn1, hn, hrows⟩ := hs.nAlpha
    rw [SetText.lines]
    simp only [List.take_succ_cons]
    rw [readHeader_ok φ _ s v hs n hn]
    simp only
    rw [if_neg hs.some_thick, readPolars_cut φ n hn1 _ _ _ j hs.count hrows hs.rows (by rw [set_lines_len] at hm; omega)]
    rfl
  · rw [if_neg h4]
    by_cases h0 : ss = []
    · subst h0
      rw [if_pos rfl]
      unfold read
      rw [List.flatMap_nil, List.nil_append, readSets]
      have hl : (s.lines.take m).length < 4 := by rw [List.length_take]; omega
      generalize s.lines.take m = tl at hl
      have : readHeader φ (!true) tl = .error .wrong := by
        match tl, hl with
        | [], _ => rfl
        | [_], _ => rfl
        | [_, _], _ => rfl
        | [_, _, _], _ => rfl
      rw [this]
    · rw [if_neg h0]
      exact C99 φ ss vs h h0 _ (by rw [List.length_take]; omega)

/-! ### A file -/

/-- toy numbers: digits -/
def digitsOf (s : Str) : Option Nat :=
  if s ≠ [] ∧ s.all Char.isDigit then some ((FastLine.pyInt s).toNat) else none

/-- toy texts of numbers -/
def toy : Num Nat := ⟨digitsOf, fun s => (digitsOf s).map Int.ofNat⟩

/-- two thicknesses, two angles -/
def exSet : SetText :=
  ⟨"Profile set 1: thick".toList, " 2 ".toList, "15 21".toList, "2".toList,
    [⟨" Re 6 ".toList, ["0 1 2 3".toList, "4 5 6 7".toList]⟩, ⟨"".toList, ["0 1 1 3".toList, " 4 5  8 7 ".toList]⟩]⟩

def exVal : PSet Nat :=
  ⟨" 1: thick".toList, [15, 21], [[[0, 1, 2, 3], [4, 5, 6, 7]], [[0, 1, 1, 3], [4, 5, 8, 7]]], ["Re 6".toList, []]⟩

theorem exSays (l : Str) (v : List Nat) (h : (words l).map digitsOf = v.map some) : Says toy l v := by
  unfold Says
  generalize words l = ws at h
  induction ws generalizing v with
  | nil =>
    cases v with
    | nil => exact .nil
    | cons _ _ => simp at h
  | cons w ws ih =>
    cases v with
    | nil => simp at h
    | cons x v =>
      simp only [List.map_cons, List.cons.injEq] at h
      exact .cons h.1 (ih v h.2)

theorem exOk : exSet.Ok toy exVal where
  some_thick := by decide
  nThick := by decide +kernel
  thick := exSays _ _ (by decide +kernel)
  count := rfl
  nAlpha := ⟨2, by omega, by decide +kernel, by decide⟩
  rows := .cons ⟨.cons (exSays _ _ (by decide +kernel)) (.cons (exSays _ _ (by decide +kernel)) .nil), by decide⟩
    (.cons ⟨.cons (exSays _ _ (by decide +kernel)) (.cons (exSays _ _ (by decide +kernel)) .nil), by decide⟩ .nil)
  heads := by decide +kernel
  title := .inl ⟨"Profile set".toList, " 1: thick".toList, by decide +kernel, by decide +kernel, rfl⟩

example : read toy ([exSet, exSet].flatMap SetText.lines ++ [[]]) = .ok [exVal, exVal] :=
  C99 toy _ _ (.cons exOk (.cons exOk .nil)) (by simp) _ (by simp)

/-- cut among the polars of the second set, among its first lines, among the first lines of the file -/
example : read toy ([exSet].flatMap SetText.lines ++ exSet.lines.take 7) = .error .broken ∧
    read toy ([exSet].flatMap SetText.lines ++ exSet.lines.take 3) = .ok [exVal] ∧
    read toy ([].flatMap SetText.lines ++ exSet.lines.take 3) = .error .wrong :=
  ⟨C100 toy _ _ (.cons exOk .nil) _ _ exOk 7 (by decide), C100 toy _ _ (.cons exOk .nil) _ _ exOk 3 (by decide),
    C100 toy [] [] .nil _ _ exOk 3 (by decide)⟩

/-- **C101** is violated: a row with one number instead of four is read as four equal numbers. -/
theorem C101_fails : read toy ["a".toList, "1".toList, "15".toList, "1".toList, "b".toList, "7".toList] =
    .ok [⟨"a".toList, [15], [[[7, 7, 7, 7]]], ["b".toList]⟩] := by decide +kernel

/-- **C101** A file with a row of two, three, more than four numbers, no number, or a word which is no
number, in one of its polars after sets and polars as they should be, is refused. -/
theorem C101_partial {F : Type} (φ : Num F) (ss : List SetText) (vs : List (PSet F)) (h : List.Forall₂ (SetText.Ok φ) ss vs)
    (s : SetText) (v : PSet F) (hs : s.Ok φ v) (pre : List PolarText) (p : PolarText) (post : List PolarText)
    (hp : s.polars = pre ++ p :: post) (good : List Str) (r0 : Str) (rs : List Str) (hr : p.rows = good ++ r0 :: rs)
    (bad : Str) (rest : List Str) (hbad : (words bad).length ≠ 4 ∧ (words bad).length ≠ 1 ∨ ∃ w ∈ words bad, φ.parse w = none) :
    read φ (ss.flatMap SetText.lines ++ ([s.title, s.nThick, s.thick, s.nAlpha] ++ pre.flatMap PolarText.lines ++ p.head :: good) ++
      bad :: rest) = .error .broken := by
  unfold read
  have := flat_len ss
  rw [List.append_assoc, readSets_ok φ ss vs h _ true _ (by rw [List.length_append]; omega)]
  obtain ⟨k, hk⟩ : ∃ k, (ss.flatMap SetText.lines ++ (([s.title, s.nThick, s.thick, s.nAlpha] ++ pre.flatMap PolarText.lines ++ p.head :: good) ++
      bad :: rest)).length + 1 - ss.length = k + 1 := by
    refine ⟨(ss.flatMap SetText.lines ++ (([s.title, s.nThick, s.thick, s.nAlpha] ++ pre.flatMap PolarText.lines ++ p.head :: good) ++
      bad :: rest)).length - ss.length, ?_⟩
    rw [List.length_append]; omega
  rw [hk, readSets]
  obtain ⟨n, hn1, hn, hrows⟩ := hs.nAlpha
  have hc := hs.count
  have hro := hs.rows
  rw [hp] at hc hro hrows
  simp only [List.cons_append, List.nil_append, List.append_assoc]
  rw [readHeader_ok φ _ s v hs n hn]
  simp only
  rw [if_neg hs.some_thick, readPolars_bad φ n pre p post _ _ hc hrows hro good r0 rs hr bad rest (fit_bad φ bad hbad)]
  rfl

/-- the second row of the second polar of a set has three numbers -/
example : read toy ([exSet].flatMap SetText.lines ++ ([exSet.title, exSet.nThick, exSet.thick, exSet.nAlpha] ++
    [(⟨" Re 6 ".toList, ["0 1 2 3".toList, "4 5 6 7".toList]⟩ : PolarText)].flatMap PolarText.lines ++ [] :: ["0 1 1 3".toList]) ++
    "4 5 8".toList :: []) = .error .broken :=
  C101_partial toy _ _ (.cons exOk .nil) exSet exVal exOk _ ⟨[], _⟩ [] rfl ["0 1 1 3".toList] " 4 5  8 7 ".toList [] rfl _ _
    (.inl (by decide +kernel))

/-! ### Data frames -/

/-- **C102** is violated: of two polars of the same thickness in a set one is lost. -/
theorem C102_fails : toDataFrame (fun n : Nat => Nat.toDigits 10 n) [⟨[], [15, 15], [[[0, 1, 2, 3]], [[4, 5, 6, 7]]], [[], []]⟩] =
    [("pc_set_1_t_15".toList, [[4, 5, 6, 7]])] := by decide +kernel

/-- **C102** If the thicknesses of each set are printed differently there is one data frame per polar,
in the order of the file, with the coefficients read, named by number of the set and thickness. -/
theorem C102_partial {F : Type} (str : F → Str) (sets : List (PSet F)) (hlen : ∀ s ∈ sets, s.polars.length = s.thickness.length)
    (h : ∀ s ∈ sets, (s.thickness.map str).Nodup) :
    toDataFrame str sets = (sets.zipIdx 1).flatMap (fun si => List.zipWith
      (fun t p => ("pc_set_".toList ++ Nat.toDigits 10 si.2 ++ "_t_".toList ++ str t, p)) si.1.thickness si.1.polars) := by
  have hfr : ∀ (ss : List (PSet F)) (i : Nat), framesFrom str i ss = (ss.zipIdx (i + 1)).flatMap (fun si => List.zipWith
      (fun t p => ("pc_set_".toList ++ Nat.toDigits 10 si.2 ++ "_t_".toList ++ str t, p)) si.1.thickness si.1.polars) := by
    intro ss
    induction ss with
    | nil => intro i; rfl
    | cons s ss ih =>
      intro i
      rw [framesFrom, ih (i + 1), List.zipIdx_cons, List.flatMap_cons, List.map_zip_eq_zipWith]
      rfl
  have hnames : ∀ (ss : List (PSet F)) (i : Nat), ∀ p ∈ framesFrom str i ss, ∃ j t, i ≤ j ∧ p.1 = frameName str j t := by
    intro ss
    induction ss with
    | nil => intro i p hp; simp [framesFrom] at hp
    | cons s ss ih =>
      intro i p hp
      rw [framesFrom, List.mem_append] at hp
      rcases hp with hp | hp
      · obtain ⟨q, -, rfl⟩ := List.mem_map.1 hp
        exact ⟨i, q.1, le_refl _, rfl⟩
      · obtain ⟨j, t, hj, ht⟩ := ih (i + 1) p hp
        exact ⟨j, t, by omega, ht⟩
  have hnd : ∀ (ss : List (PSet F)) (i : Nat), (∀ s ∈ ss, s.polars.length = s.thickness.length) →
      (∀ s ∈ ss, (s.thickness.map str).Nodup) → ((framesFrom str i ss).map Prod.fst).Nodup := by
    intro ss
    induction ss with
    | nil => intro i _ _; simp [framesFrom]
    | cons s ss ih =>
      intro i hl hn
      rw [framesFrom, List.map_append, List.nodup_append]
      refine ⟨?_, ih (i + 1) (fun s hs => hl s (List.mem_cons_of_mem _ hs)) (fun s hs => hn s (List.mem_cons_of_mem _ hs)), ?_⟩
      · have e : ((s.thickness.zip s.polars).map (fun tp => (frameName str i tp.1, tp.2))).map Prod.fst =
            (s.thickness.map str).map (fun x => "pc_set_".toList ++ Nat.toDigits 10 (i + 1) ++ "_t_".toList ++ x) := by
          rw [List.map_map, List.map_map]
          have := List.map_fst_zip (l₁ := s.thickness) (l₂ := s.polars) (by rw [hl s (by simp)])
          conv_rhs => rw [← this]
          rw [List.map_map]
          rfl
        rw [e]
        exact (hn s (by simp)).map (fun a b hab => List.append_cancel_left hab)
      · intro a ha b hb hab
        obtain ⟨p, hp, rfl⟩ := List.mem_map.1 ha
        obtain ⟨q, hq, rfl⟩ := List.mem_map.1 hb
        obtain ⟨tp, -, rfl⟩ := List.mem_map.1 hp
        obtain ⟨j, t, hj, ht⟩ := hnames ss (i + 1) q hq
        rw [ht] at hab
        have := (frameName_inj str i j tp.1 t hab).1
        omega
  unfold toDataFrame
  rw [foldl_setKey _ [] (by simpa using hnd sets 0 hlen h), List.nil_append, hfr sets 0]

example : (toDataFrame (fun n : Nat => Nat.toDigits 10 n) [exVal, exVal]).map Prod.fst =
    ["pc_set_1_t_15".toList, "pc_set_1_t_21".toList, "pc_set_2_t_15".toList, "pc_set_2_t_21".toList] := by
  rw [C102_partial _ _ (by decide) (by decide +kernel)]
  decide +kernel

end Verif.FlexPro
