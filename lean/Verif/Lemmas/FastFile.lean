import Verif.Lemmas.FastLine
/-! Helper lemmas for the file-level properties C12, C13. -/
namespace Verif.FastLine
open Verif.Py Verif.FastDict

theorem splitlinesAux_word (acc s rest : Str) (b : Bool) (h : ∀ c ∈ s, isLineBreak c = false) (hne : s ≠ [] ∨ b = false) :
    splitlinesAux acc b (s ++ '\n' :: rest) = (acc ++ s) :: splitlines rest := by
  induction s generalizing acc b with
  | nil =>
    have hb : b = false := by rcases hne with h | h; exact absurd rfl h; exact h
    subst hb
    have h1 : isLineBreak '\n' = true := by decide
    simp [splitlinesAux, h1, splitlines]
  | cons x s ih =>
    have hx := h x (by simp)
    have hx2 : x ≠ '\n' := by rintro rfl; revert hx; decide
    simp only [List.cons_append, splitlinesAux, hx2, false_and, if_false, hx]
    rw [if_neg (by simp), ih _ _ (fun c hc => h c (by simp [hc])) (Or.inr rfl)]
    simp

theorem splitlinesAux_last (acc s : Str) (b : Bool) (h : ∀ c ∈ s, isLineBreak c = false) (hne : acc ++ s ≠ []) :
    splitlinesAux acc b s = [acc ++ s] := by
  induction s generalizing acc b with
  | nil =>
    simp at hne
    simp [splitlinesAux, hne]
  | cons x s ih =>
    have hx := h x (by simp)
    have hx2 : x ≠ '\n' := by rintro rfl; revert hx; decide
    simp only [splitlinesAux, hx2, false_and, if_false, hx]
    rw [if_neg (by simp), ih _ _ (fun c hc => h c (by simp [hc])) (by simp)]
    simp

/-- text of lines joined by newlines, split again. -/
theorem splitlines_join (ls : List Str) (h : ∀ l ∈ ls, ∀ c ∈ l, isLineBreak c = false)
    (hlast : ls.getLast? ≠ some []) : splitlines (joinWith ['\n'] ls) = ls := by
  induction ls with
  | nil => rfl
  | cons l ls ih =>
    have hl := h l (by simp)
    by_cases hn : ls = []
    · subst hn
      simp at hlast
      have := splitlinesAux_last [] l false hl (by simpa using hlast)
      simpa [splitlines, joinWith] using this
    · rw [joinWith_cons _ _ _ hn]
      have := splitlinesAux_word [] l (joinWith ['\n'] ls) false hl (Or.inr rfl)
      have e : l ++ ['\n'] ++ joinWith ['\n'] ls = l ++ '\n' :: joinWith ['\n'] ls := by simp
      rw [e, splitlines, this, ih (fun l hl => h l (by simp [hl]))]
      · rfl
      · intro e
        apply hlast
        obtain ⟨a, b, rfl⟩ := List.exists_cons_of_ne_nil hn
        rw [List.getLast?_cons_cons]; exact e

/-! ### descriptions -/

theorem strip_head (s : Str) : ∀ c, (strip s).head? = some c → isWs c = false := by
  intro c hc
  unfold strip stripBy at hc
  obtain ⟨t, h1, h2⟩ := rstripBy_append isWs (lstripBy isWs s)
  generalize hr : rstripBy isWs (lstripBy isWs s) = r at hc h1
  cases r with
  | nil => simp at hc
  | cons x r =>
    simp at hc; subst hc
    unfold lstripBy at h1
    cases hp : isWs x with
    | false => rfl
    | true =>
      exfalso
      have := List.head?_dropWhile_not isWs s
      rw [h1] at this
      simp [hp] at this

theorem strip_last (s : Str) : ∀ c, (strip s).getLast? = some c → isWs c = false := by
  intro c hc
  unfold strip stripBy rstripBy at hc
  rw [List.getLast?_reverse] at hc
  cases hp : isWs c with
  | false => rfl
  | true =>
    exfalso
    have := List.head?_dropWhile_not isWs (lstripBy isWs s).reverse
    rw [hc] at this
    simp [hp] at this

/-- the description read back is `- n`; stripping it gives `n` again. -/
theorem descrText_reread (n : Str) (h1 : ∀ c, n.head? = some c → isWs c = false ∧ c ≠ '-')
    (h2 : ∀ c, n.getLast? = some c → isWs c = false ∧ c ≠ '-') :
    descrText (if n = [] then ['-'] else '-' :: ' ' :: n) = n := by
  by_cases hn : n = []
  · subst hn; decide
  · rw [if_neg hn]
    obtain ⟨l, hl⟩ : ∃ l, n.getLast? = some l := by
      rw [List.getLast?_eq_some_getLast hn]; exact ⟨_, rfl⟩
    have hlast : ('-' :: ' ' :: n).getLast? = some l := by
      rw [List.getLast?_cons, List.getLast?_cons, hl]; rfl
    unfold descrText
    have e1 : strip ('-' :: ' ' :: n) = '-' :: ' ' :: n := by
      apply stripBy_eq_self
      · intro c hc; simp at hc; subst hc; decide
      · intro c hc; rw [hlast] at hc; simp at hc; subst hc; exact (h2 _ hl).1
    rw [e1]
    have e2 : stripBy (· == '-') ('-' :: ' ' :: n) = ' ' :: n := by
      have h3 : stripBy (· == '-') (' ' :: n) = ' ' :: n := by
        apply stripBy_eq_self
        · intro c hc; simp at hc; subst hc; decide
        · intro c hc
          rw [List.getLast?_cons, hl] at hc; simp at hc; subst hc
          simpa using (h2 _ hl).2
      unfold stripBy lstripBy at h3 ⊢
      rw [List.dropWhile_cons_of_pos (by simp)]
      exact h3
    rw [e2]
    have h3 : strip n = n := stripBy_eq_self _ _ (fun c hc => (h1 c hc).1) (fun c hc => (h2 c hc).1)
    unfold strip stripBy lstripBy at h3 ⊢
    rw [List.dropWhile_cons_of_pos isWs_space]
    exact h3

end Verif.FastLine
