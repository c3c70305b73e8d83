import Verif.Py.Path
import Mathlib.Tactic
/-! # Lemmas on paths -/
namespace Verif.Py

/-- a plain file name -/
def Plain (n : Str) : Prop := '/' ∉ n ∧ n ≠ []

theorem Plain.head {n : Str} (h : Plain n) : n.head? ≠ some '/' := fun e => h.1 (List.mem_of_head? e)

theorem takeWhile_append_stop (p : Char → Bool) (a b : Str) (x : Char) (ha : ∀ c ∈ a, p c = true) (hx : p x = false) :
    (a ++ x :: b).takeWhile p = a := by
  induction a with
  | nil => rw [List.nil_append, List.takeWhile_cons_of_neg (by simp [hx])]
  | cons c a ih =>
    rw [List.cons_append, List.takeWhile_cons_of_pos (ha c (by simp)), ih fun d hd => ha d (by simp [hd])]

theorem dropWhile_append_stop (p : Char → Bool) (a b : Str) (x : Char) (ha : ∀ c ∈ a, p c = true) (hx : p x = false) :
    (a ++ x :: b).dropWhile p = x :: b := by
  induction a with
  | nil => rw [List.nil_append, List.dropWhile_cons_of_neg (by simp [hx])]
  | cons c a ih =>
    rw [List.cons_append, List.dropWhile_cons_of_pos (ha c (by simp)), ih fun d hd => ha d (by simp [hd])]

theorem takeWhile_allP (p : Char → Bool) (s : Str) (h : ∀ c ∈ s, p c = true) : s.takeWhile p = s := by
  induction s with
  | nil => rfl
  | cons c s ih =>
    rw [List.takeWhile_cons_of_pos (h c (by simp)), ih fun d hd => h d (by simp [hd])]

theorem dropWhile_allP (p : Char → Bool) (s : Str) (h : ∀ c ∈ s, p c = true) : s.dropWhile p = [] := by
  induction s with
  | nil => rfl
  | cons c s ih =>
    rw [List.dropWhile_cons_of_pos (h c (by simp)), ih fun d hd => h d (by simp [hd])]

theorem noSlash_all {n : Str} (h : '/' ∉ n) : ∀ c ∈ n.reverse, (decide (c ≠ '/')) = true := by
  intro c hc
  refine decide_eq_true ?_
  rintro rfl
  exact h (List.mem_reverse.1 hc)

theorem basename_plain (n : Str) (h : '/' ∉ n) : basename n = n := by
  rw [basename, takeWhile_allP _ _ (noSlash_all h), List.reverse_reverse]

theorem basename_slash (d n : Str) (h : '/' ∉ n) : basename (d ++ '/' :: n) = n := by
  rw [basename, List.reverse_append, List.reverse_cons, List.append_assoc]
  have : [ '/' ] ++ d.reverse = '/' :: d.reverse := rfl
  rw [this, takeWhile_append_stop _ _ _ _ (noSlash_all h) (by decide), List.reverse_reverse]

theorem pjoin_cases (d n : Str) (h : Plain n) :
    (d = [] ∧ pjoin d n = n) ∨ (∃ e, d = e ++ ['/'] ∧ pjoin d n = e ++ '/' :: n) ∨
    (d ≠ [] ∧ d.getLast? ≠ some '/' ∧ pjoin d n = d ++ '/' :: n) := by
  rw [pjoin, if_neg h.head]
  by_cases h1 : d = []
  · left; exact ⟨h1, by rw [if_pos (.inl h1), h1]; rfl⟩
  · by_cases h2 : d.getLast? = some '/'
    · right; left
      obtain ⟨e, rfl⟩ := List.getLast?_eq_some_iff.1 h2
      exact ⟨e, rfl, by rw [if_pos (.inr h2)]; simp⟩
    · right; right
      exact ⟨h1, h2, by rw [if_neg (by simp [h1, h2])]⟩

theorem basename_pjoin (d n : Str) (h : Plain n) : basename (pjoin d n) = n := by
  rcases pjoin_cases d n h with ⟨_, e⟩ | ⟨c, _, e⟩ | ⟨_, _, e⟩ <;> rw [e]
  · exact basename_plain _ h.1
  · exact basename_slash _ _ h.1
  · exact basename_slash _ _ h.1

theorem pjoin_inj (d n m : Str) (hn : Plain n) (hm : Plain m) (h : pjoin d n = pjoin d m) : n = m := by
  rw [← basename_pjoin d n hn, h, basename_pjoin d m hm]

/-- a directory name without superfluous slashes at its end -/
def DirOk (d : Str) : Prop := (∀ c ∈ d, c = '/') ∨ d.getLast? ≠ some '/'

theorem dropWhile_head_not (p : Char → Bool) (s : Str) (c : Char) (h : (s.dropWhile p).head? = some c) : p c = false := by
  induction s with
  | nil => exact nomatch h
  | cons a s ih =>
    by_cases ha : p a = true
    · rw [List.dropWhile_cons_of_pos ha] at h; exact ih h
    · rw [List.dropWhile_cons_of_neg ha] at h
      injection h with h
      subst h; simpa using ha

theorem rstripBy_last (p : Char → Bool) (s : Str) (c : Char) (h : (rstripBy p s).getLast? = some c) : p c = false := by
  rw [rstripBy, List.getLast?_reverse] at h
  exact dropWhile_head_not p _ c h

theorem dirname_ok (p : Str) : DirOk (dirname p) := by
  rw [dirname]
  by_cases h : (headPart p).all (· = '/') = true
  · simp only [h, if_true]
    left
    intro c hc
    exact of_decide_eq_true (List.all_eq_true.1 h c hc)
  · simp only [h]
    right
    intro e
    exact absurd (rstripBy_last _ _ _ e) (by decide)

theorem headPart_slash (d n : Str) (h : '/' ∉ n) : headPart (d ++ '/' :: n) = d ++ ['/'] := by
  rw [headPart, List.reverse_append, List.reverse_cons, List.append_assoc]
  have : [ '/' ] ++ d.reverse = '/' :: d.reverse := rfl
  rw [this, dropWhile_append_stop _ _ _ _ (noSlash_all h) (by decide)]
  simp

theorem headPart_plain (n : Str) (h : '/' ∉ n) : headPart n = [] := by
  rw [headPart, dropWhile_allP _ _ (noSlash_all h)]; rfl

/-- the directory of a file in a directory -/
theorem dirname_pjoin (d n : Str) (hd : DirOk d) (h : Plain n) : dirname (pjoin d n) = d := by
  rcases pjoin_cases d n h with ⟨e1, e⟩ | ⟨c, e1, e⟩ | ⟨e1, e2, e⟩ <;> rw [e, dirname]
  · rw [headPart_plain _ h.1, e1]; rfl
  · rcases hd with hd | hd
    · have hall : (c ++ ['/']).all (· = '/') = true := by
        rw [List.all_eq_true]
        intro x hx
        rw [← e1] at hx
        exact decide_eq_true (hd x hx)
      simp only [headPart_slash _ _ h.1, hall, if_true]
      exact e1.symm
    · rw [e1] at hd
      exact absurd List.getLast?_concat hd
  · obtain ⟨l, hl⟩ : ∃ l, d.getLast? = some l := by
      rw [List.getLast?_eq_some_getLast e1]; exact ⟨_, rfl⟩
    have hne : l ≠ '/' := by rintro rfl; exact e2 hl
    obtain ⟨b, hb⟩ := List.getLast?_eq_some_iff.1 hl
    have hall : (d ++ ['/']).all (· = '/') = false := by
      rw [hb]; simp [hne]
    simp only [headPart_slash _ _ h.1, hall, Bool.false_eq_true, if_false]
    rw [rstripBy, List.reverse_append]
    show (List.dropWhile _ ('/' :: d.reverse)).reverse = d
    rw [List.dropWhile_cons_of_pos (by decide)]
    rw [hb, List.reverse_append]
    show (List.dropWhile _ (l :: b.reverse)).reverse = _
    rw [List.dropWhile_cons_of_neg (by simpa using hne)]
    simp

end Verif.Py
