import Verif.Lemmas.HtcInclude
import Verif.Py.Dec
import Verif.Lemmas.Str
/-!
# Files that continue in other files

Properties C238 and C239.
-/
namespace Verif.HtcInclude
open Verif.Py

/-- **C238**: a file with a line `continue_in_file name;` gives its lines before, the lines of the
named file below the model path up to its `exit`, and its lines after; the parts before and after
are read in the same way, and so is the named file -/
theorem C238_parts (E : Env) (n : Nat) (p pa pb l name m : Str) (a b ra rb fa fb keep rest fs : List Str)
    (hp : E.lines p = some (a ++ l :: b)) (ha : E.lines pa = some a) (hb : E.lines pb = some b) (hl : Says l name)
    (hm : E.modelpath = some m)
    (hra : readlines E (n + 1) pa = .ok (ra, fa)) (hrb : readlines E (n + 1) pb = .ok (rb, fb))
    (hrm : readlines E n (join m (lower name)) = .ok (keep ++ rest, fs))
    (hk : ∀ x ∈ keep, (lower (lstrip x)).take 4 ≠ "exit".toList)
    (hr : ∀ x, rest.head? = some x → (lower (lstrip x)).take 4 = "exit".toList) :
    ∃ files, readlines E (n + 1) p = .ok (ra ++ keep ++ rb, files) ∧ ∀ f ∈ fs, f ∈ files := by
  obtain ⟨h1, h2⟩ := says_line l name hl
  rw [readlines, ha] at hra
  rw [readlines, hb] at hrb
  simp only at hra hrb
  cases hA : expand E (readlines E n) a with
  | error e => rw [hA] at hra; cases hra
  | ok x =>
    obtain ⟨r1, f1⟩ := x
    simp only [hA, Except.ok.injEq, Prod.mk.injEq] at hra
    cases hB : expand E (readlines E n) b with
    | error e => rw [hB] at hrb; cases hrb
    | ok y =>
      obtain ⟨r2, f2⟩ := y
      simp only [hB, Except.ok.injEq, Prod.mk.injEq] at hrb
      have hloc : locate E (incName l) = .ok (join m (lower name)) := by rw [locate, hm, h2]
      have hlb : expand E (readlines E n) (l :: b) = .ok (keep ++ r2, fs ++ f2) := by
        rw [expand, if_pos h1, hloc]
        simp only [hrm, hB]
        rw [takeWhile_exit keep rest hk hr]
      have := expand_append E (readlines E n) a (l :: b) _ _ _ _ hA hlb
      refine ⟨if p ≠ E.filename then p :: (f1 ++ (fs ++ f2)) else f1 ++ (fs ++ f2), ?_, ?_⟩
      · rw [readlines, hp]
        simp only [this]
        rw [← hra.1, ← hrb.1, List.append_assoc]
      · intro f hf
        split <;> simp [hf]

/-- **C238**: a file without such lines gives its lines, and itself as input file unless it is the
main one -/
theorem C238_plain (E : Env) (n : Nat) (p : Str) (a : List Str) (hp : E.lines p = some a)
    (ha : ∀ l ∈ a, (lstrip (lower l)).take 16 ≠ "continue_in_file".toList) :
    readlines E (n + 1) p = .ok (a, if p = E.filename then [] else [p]) := by
  have : ∀ l ∈ a, isInclude l = false := by
    intro l hl
    rw [← Bool.not_eq_true, isInclude, startsWith, List.isPrefixOf_iff_prefix, List.prefix_iff_eq_take]
    exact fun e => ha l hl e.symm
  rw [readlines, hp]
  simp only [expand_plain E _ a this]
  by_cases h : p = E.filename <;> simp [h]

/-- **C238**: no such line is left, however deep the files are nested -/
theorem C238_none_left (E : Env) (n : Nat) (p : Str) (r fs : List Str) (h : readlines E n p = .ok (r, fs)) :
    ∀ l ∈ r, (lstrip (lower l)).take 16 ≠ "continue_in_file".toList := by
  have key : ∀ n p r fs, readlines E n p = .ok (r, fs) → ∀ l ∈ r, isInclude l = false := by
    intro n
    induction n with
    | zero => intro p r fs h; rw [readlines] at h; cases h
    | succ n ih =>
      intro p r fs h
      rw [readlines] at h
      cases hp : E.lines p with
      | none => rw [hp] at h; cases h
      | some ls =>
        simp only [hp] at h
        cases he : expand E (readlines E n) ls with
        | error e => rw [he] at h; cases h
        | ok x =>
          obtain ⟨r', fs'⟩ := x
          simp only [he, Except.ok.injEq, Prod.mk.injEq] at h
          rw [← h.1]
          exact expand_none E _ ih ls r' fs' he
  intro l hl e
  have := key n p r fs h l hl
  rw [← Bool.not_eq_true, isInclude, startsWith, List.isPrefixOf_iff_prefix, List.prefix_iff_eq_take] at this
  exact this e.symm

/-- **C238**: a file that is not there is an error, and a file that continues in itself never ends -/
theorem C238_errors (E : Env) (p l name m : Str) (a b : List Str) (hp : E.lines p = some (a ++ l :: b))
    (ha : ∀ x ∈ a, (lstrip (lower x)).take 16 ≠ "continue_in_file".toList) (hl : Says l name) (hm : E.modelpath = some m) :
    (E.lines (join m (lower name)) = none → ∀ n, readlines E (n + 2) p = .error .notFound) ∧
    (join m (lower name) = p → ∀ n, readlines E n p = .error .recursion) := by
  obtain ⟨h1, h2⟩ := says_line l name hl
  have hpl : ∀ l ∈ a, isInclude l = false := by
    intro l hl
    rw [← Bool.not_eq_true, isInclude, startsWith, List.isPrefixOf_iff_prefix, List.prefix_iff_eq_take]
    exact fun e => ha l hl e.symm
  have hloc : locate E (incName l) = .ok (join m (lower name)) := by rw [locate, hm, h2]
  have key : ∀ rec e, rec (join m (lower name)) = .error e → expand E rec (a ++ l :: b) = .error e := by
    intro rec e he
    clear hp ha
    induction a with
    | nil =>
      rw [List.nil_append, expand, if_pos h1, hloc]
      simp only [he]
    | cons x a ih =>
      rw [List.cons_append, expand, if_neg (by simp [hpl x (by simp)]), ih (fun y hy => hpl y (by simp [hy]))]
  constructor
  · intro hn n
    rw [readlines, hp]
    simp only
    rw [key (readlines E (n + 1)) .notFound (by rw [readlines, hn])]
  · intro hc n
    induction n with
    | zero => rfl
    | succ n ih =>
      rw [readlines, hp]
      simp only
      rw [key (readlines E n) .recursion (by rw [hc]; exact ih)]

/-- a main file with a part in another file -/
def exEnv : Env where
  lines p := if p = "m/htc/a.htc".toList then some ["begin wind;".toList, "  Continue_in_file Data/Part.htc; the rest".toList, "end wind;".toList]
    else if p = "m/data/part.htc".toList then some ["wsp 8;".toList, " Exit;".toList, "not read".toList] else none
  isfile p := p = "m/htc/../Data/Part.htc".toList
  filename := "m/htc/a.htc".toList
  dir := "m/htc".toList
  modelpath := some "m/".toList

/-- the line of the main file -/
theorem exSays : Says "  Continue_in_file Data/Part.htc; the rest".toList "Data/Part.htc".toList :=
  ⟨⟨"Continue_in_file".toList, "  ".toList, " the rest".toList, by decide +kernel, by decide +kernel, by decide +kernel⟩,
    by decide +kernel, by decide +kernel, by decide +kernel⟩

example : readlines exEnv 5 exEnv.filename = .ok (["begin wind;".toList, "wsp 8;".toList, "end wind;".toList], ["m/data/part.htc".toList]) := by
  decide +kernel

example : (lower (lstrip " Exit;".toList)).take 4 = "exit".toList := by decide +kernel

/-- **C239** fails: while the model path is looked for, the named file is looked for in lower case
only: a file that is there, as written, in the directory above is not found if it has capitals -/
theorem C239_fails (E : Env) (n : Nat) (p l name : Str) (b : List Str) (hp : E.lines p = some (l :: b)) (hl : Says l name)
    (hm : E.modelpath = none) (hc : ∀ i < 4, E.isfile (level E i (replaceChar '\\' ['/'] (lower name))) = false) :
    readlines E (n + 1) p = .error .value := by
  obtain ⟨h1, h2⟩ := says_line l name hl
  have hf : (List.range 4).find? (isThere E (lower name)) = none := by
    rw [List.find?_eq_none]
    intro i hi
    rw [isThere, hc i (List.mem_range.1 hi)]
    decide
  rw [readlines, hp]
  simp only
  rw [expand, if_pos h1, locate, hm, h2]
  simp only [hf]

-- the file is there, as it is written, but cannot be read

example : readlines { exEnv with modelpath := none } 5 exEnv.filename = .error .value := by decide +kernel
-- the file is there, but not under the name in lower case

example : exEnv.isfile (level exEnv 1 "Data/Part.htc".toList) = true ∧
    ∀ i < 4, exEnv.isfile (level exEnv i (replaceChar '\\' ['/'] (lower "Data/Part.htc".toList))) = false := by decide +kernel

/-- **C239**: a file that is there under its name in lower case, with slashes, is taken from the
nearest of the directory and its three parents.  (Missing for the full property: names with
capitals.) -/
theorem C239_partial (E : Env) (n : Nat) (p l name : Str) (r fs : List Str) (hp : E.lines p = some [l]) (hl : Says l name)
    (hlow : lower name = name) (hbs : '\\' ∉ name) (hm : E.modelpath = none) (i : Nat) (hi : i < 4)
    (hc : E.isfile (level E i name) = true) (hf : ∀ j < i, E.isfile (level E j name) = false)
    (hr : readlines E n (level E i name) = .ok (r, fs)) (hx : ∀ x ∈ r, (lower (lstrip x)).take 4 ≠ "exit".toList) :
    (readlines E (n + 1) p).map Prod.fst = .ok r := by
  obtain ⟨h1, h2⟩ := says_line l name hl
  have hrep : replaceChar '\\' ['/'] name = name := by
    clear hc hf hr hl hlow h2
    rw [replaceChar]
    induction name with
    | nil => rfl
    | cons c s ih =>
      rw [List.flatMap_cons, ih (fun h => hbs (by simp [h])), if_neg (by rintro rfl; exact hbs (by simp))]
      rfl
  have hfind : (List.range 4).find? (isThere E name) = some i := by
    have ht : ∀ j, isThere E name j = E.isfile (level E j name) := fun j => by rw [isThere, hrep]
    rw [List.find?_eq_some_iff_append]
    refine ⟨by rw [ht]; exact hc, List.range i, (List.range' (i + 1) (3 - i)), ?_, ?_⟩
    · have h4 : ∀ i < 4, List.range 4 = List.range i ++ i :: List.range' (i + 1) (3 - i) := by decide
      exact h4 i hi
    · intro j hj
      rw [ht, hf j (List.mem_range.1 hj)]
      rfl
  rw [readlines, hp]
  simp only
  rw [expand, if_pos h1, locate, hm, h2, hlow]
  simp only [hfind, hr, expand]
  have := takeWhile_exit r [] hx (by intro x h; cases h)
  rw [List.append_nil] at this
  rw [this, List.append_nil]
  split <;> rfl

/-- a file one directory above the main file -/
def exLow : Env where
  lines p := if p = "m/htc/a.htc".toList then some ["continue_in_file part.htc;".toList]
    else if p = "m/htc/../part.htc".toList then some ["wsp 8;".toList] else none
  isfile p := p = "m/htc/../part.htc".toList
  filename := "m/htc/a.htc".toList
  dir := "m/htc".toList
  modelpath := none

example : exLow.isfile (level exLow 1 "part.htc".toList) = true ∧ exLow.isfile (level exLow 0 "part.htc".toList) = false ∧
    readlines exLow 1 (level exLow 1 "part.htc".toList) = .ok (["wsp 8;".toList], ["m/htc/../part.htc".toList]) ∧
    readlines exLow 2 exLow.filename = .ok (["wsp 8;".toList], ["m/htc/../part.htc".toList]) := by decide +kernel

end Verif.HtcInclude
