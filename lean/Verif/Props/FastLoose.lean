import Verif.Lemmas.FastLoose
import Verif.Props.FastHand
/-!
# C88: which files of keys and comments are taken for input files

Model: `Verif/Model/FastRead.lean`; the files: `Verif/Spec/FastLoose.lean`.
-/
namespace Verif.FastRead
open Verif.Py Verif.FastDict Verif.FastLine Verif.FastTable

theorem loose_start (N : Num) (n : Nat) : LInv N n [] {} ∧ ¬ Refused n ([] : List (Seen N.F)) :=
  ⟨⟨rfl, rfl, rfl, rfl, rfl, rfl, by simp [KpSeen]⟩, by simp [Refused]⟩

/-- **C88.** A file of keys and comments with an odd label (a character other than letters, digits,
`"'_()-`) after its third line, with more than 35% of comments or with more than 10% of odd labels is
refused with a WrongFormatError. -/
theorem C88_refused (N : Num) (hP : N.toPyFloat.Lawful) (lines : List Str) (ds : List (Seen N.F)) (fuel : Nat)
    (h : Loose N [] lines ds)
    (hext : lines.length < 10 ∨ ∃ ch r, lines.head? = some (ch :: r) ∧ ch ≠ '!')
    (had : lines.length < 14 ∨ ∀ w ws, words (lines.getD 2 []) = w :: ws → ¬ IntText w) (hf : lines.length ≤ fuel)
    (hbad : (∃ d ∈ ds.drop 3, Odd d) ∨ 35 * lines.length < 100 * ds.countP (·.comment) ∨
      lines.length < 10 * ds.countP (fun d => decide (Odd d))) :
    readLines N fuel lines = .error .wrongFormat := by
  rw [readLines_loop N lines fuel hext had]
  exact (loose_loop hP lines.length h {} fuel (loose_start N _).1 (loose_start N _).2 hf).1 hbad

/-- **C88.** Any other file of keys and comments is read, also when one of the first three labels is
odd. -/
theorem C88_read (N : Num) (hP : N.toPyFloat.Lawful) (lines : List Str) (ds : List (Seen N.F)) (fuel : Nat)
    (h : Loose N [] lines ds)
    (hext : lines.length < 10 ∨ ∃ ch r, lines.head? = some (ch :: r) ∧ ch ≠ '!')
    (had : lines.length < 14 ∨ ∀ w ws, words (lines.getD 2 []) = w :: ws → ¬ IntText w) (hf : lines.length ≤ fuel)
    (h1 : ∀ d ∈ ds.drop 3, ¬ Odd d) (h2 : 100 * ds.countP (·.comment) ≤ 35 * lines.length)
    (h3 : 10 * ds.countP (fun d => decide (Odd d)) ≤ lines.length) :
    ∃ data, readLines N fuel lines = .ok data ∧ data.map Item.seen = ds := by
  rw [readLines_loop N lines fuel hext had]
  refine (loose_loop hP lines.length h {} fuel (loose_start N _).1 (loose_start N _).2 hf).2 ?_
  rintro (⟨d, hd, ho⟩ | hx | hx)
  · exact h1 d hd ho
  · have : 35 * lines.length < 100 * ds.countP (·.comment) := hx
    omega
  · have : lines.length < 10 * ds.countP (fun d => decide (Odd d)) := hx
    omega

/-! ### examples -/

/-- the line `1 <label>` -/
theorem one_key (b : List (Seen toyN.F)) (lab : Str) (lines : List Str) (ds : List (Seen toyN.F))
    (h1 : words ("1 ".toList ++ lab) = ["1".toList, lab]) (h2 : ∀ c ∈ lab, isWs c = false ∧ c ≠ ',')
    (h3 : toyN.parse lab = none) (h4 : lower lab ∉ ["true".toList, "t".toList, "false".toList, "f".toList]) (h5 : ¬ Tag lab)
    (h6 : sections.all (fun s => (find s.toList (upper ("1 ".toList ++ lab))).isNone) = true)
    (h7 : ∀ k ∈ reserved, lower lab ≠ k.toList)
    (h : Loose toyN (b ++ [⟨lab, .plain (.scalar (.int 1)), false, none, none⟩]) lines ds) :
    Loose toyN b (("1 ".toList ++ lab) :: lines) (⟨lab, .plain (.scalar (.int 1)), false, none, none⟩ :: ds) := by
  refine .key _ _ _ _ _ _ ⟨"1".toList, ["1".toList], [], [], h1, textOK_one _ (by decide) (by decide) (by decide) (by decide) (by decide),
    .nat 1, .nil, .inl rfl, ?_, noSection_of _ h6, ⟨?_, h2, h3, h4, h5⟩, by simp⟩ (by intro s hs; cases hs) h7 h
  · refine notEnd_of _ ?_
    intro a ha
    rw [h1] at ha
    injection ha with ha; subst ha; decide
  · have := words_ok ("1 ".toList ++ lab) lab (by rw [h1]; simp)
    exact this.1

/-- eleven lines with the odd label `a%` in line `k` -/
def looseFile (k : Nat) : List Str := (List.range 11).map fun j => "1 ".toList ++ (if j = k then "a%".toList else "ab".toList)

/-- what they say -/
def looseItems (k : Nat) : List (Seen toyN.F) :=
  (List.range 11).map fun j => ⟨if j = k then "a%".toList else "ab".toList, .plain (.scalar (.int 1)), false, none, none⟩

theorem looseFile_ok (k : Nat) : Loose toyN [] (looseFile k) (looseItems k) := by
  have gen : ∀ (js : List Nat) (b : List (Seen toyN.F)), Loose toyN b
      (js.map fun j => "1 ".toList ++ (if j = k then "a%".toList else "ab".toList))
      (js.map fun j => ⟨if j = k then "a%".toList else "ab".toList, .plain (.scalar (.int 1)), false, none, none⟩) := by
    intro js
    induction js with
    | nil => intro b; exact .nil _
    | cons j js ih =>
      intro b
      rw [List.map_cons, List.map_cons]
      have hx : ∀ lab ∈ ["a%".toList, "ab".toList],
          words ("1 ".toList ++ lab) = ["1".toList, lab] ∧ (∀ c ∈ lab, isWs c = false ∧ c ≠ ',') ∧
          lower lab ∉ ["true".toList, "t".toList, "false".toList, "f".toList] ∧ ¬ Tag lab ∧
          sections.all (fun s => (find s.toList (upper ("1 ".toList ++ lab))).isNone) = true ∧
          ∀ k ∈ reserved, lower lab ≠ k.toList := by unfold Tag; decide
      have hp : ∀ lab ∈ ["a%".toList, "ab".toList], toyN.parse lab = none := by
        intro lab hl
        simp only [List.mem_cons, List.not_mem_nil, or_false] at hl
        rcases hl with rfl | rfl <;> rfl
      have hm : (if j = k then "a%".toList else "ab".toList) ∈ ["a%".toList, "ab".toList] := by
        split <;> simp
      generalize (if j = k then "a%".toList else "ab".toList) = lab at hm
      obtain ⟨a1, a2, a3, a4, a5, a6⟩ := hx lab hm
      exact one_key b lab _ _ a1 a2 (hp lab hm) a3 a4 a5 a6 (ih _)
  exact gen _ _

/-- refused when the odd label is in the fourth line, read when it is in the third -/
example : (∃ d ∈ (looseItems 3).drop 3, Odd d) ∧ (∀ d ∈ (looseItems 2).drop 3, ¬ Odd d) ∧
    100 * (looseItems 2).countP (·.comment) ≤ 35 * (looseFile 2).length ∧
    10 * (looseItems 2).countP (fun d => decide (Odd d)) ≤ (looseFile 2).length ∧
    ((looseFile 3).length < 10 ∨ ∃ ch r, (looseFile 3).head? = some (ch :: r) ∧ ch ≠ '!') ∧ (looseFile 3).length < 14 := by
  refine ⟨⟨_, .head _, by decide⟩, by decide, by decide, by decide, .inr ⟨'1', _, rfl, by decide⟩, by decide⟩

/-- the same file, read and refused -/
example : readLines toyN 11 (looseFile 3) = .error .wrongFormat ∧
    ∃ data, readLines toyN 11 (looseFile 2) = .ok data ∧ data.map Item.seen = looseItems 2 :=
  ⟨C88_refused toyN toy_lawful _ _ _ (looseFile_ok 3) (.inr ⟨'1', _, rfl, by decide⟩) (.inl (by decide)) (by decide)
    (.inl ⟨_, .head _, by decide⟩),
   C88_read toyN toy_lawful _ _ _ (looseFile_ok 2) (.inr ⟨'1', _, rfl, by decide⟩) (.inl (by decide)) (by decide)
    (by decide) (by decide) (by decide)⟩

end Verif.FastRead
