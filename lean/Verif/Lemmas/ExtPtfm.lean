import Verif.Model.ExtPtfm
import Verif.Lemmas.FastFile
import Verif.Lemmas.FastTypes
namespace Verif.ExtPtfm
open Verif.Py Verif.FastLine Verif.FastTypes

/-! ### the loop does not depend on its fuel -/

theorem section_length (N : Num F) (st : St F) (tl : List Str) (m : List (List F)) (rest : List Str)
    (h : section_ N st tl = .ok (m, rest)) : rest.length ≤ tl.length := by
  cases tl with
  | nil => simp [section_] at h
  | cons d body =>
    simp only [section_] at h
    split at h
    · simp at h
    · split at h
      · simp at h
      · split at h
        · simp at h
        · split at h
          · simp at h
          · simp only [Except.ok.injEq, Prod.mk.injEq] at h
            rw [← h.2, List.length_drop, List.length_cons]
            omega

theorem loading_length (N : Num F) (st : St F) (tl : List Str) (m : List (List F)) (rest : List Str)
    (h : loading N st tl = .ok (m, rest)) : rest.length ≤ tl.length := by
  simp only [loading] at h
  split at h
  · split at h
    · simp at h
    · split at h
      · simp at h
      · simp only [Except.ok.injEq, Prod.mk.injEq] at h
        rw [← h.2, List.length_drop, List.length_drop]
        omega
  · simp at h

theorem loop_fuel (N : Num F) (j k : Nat) (st : St F) (ls : List Str) (hj : ls.length ≤ j) (hk : ls.length ≤ k) :
    loop N j st ls = loop N k st ls := by
  induction j generalizing k st ls with
  | zero =>
    obtain rfl : ls = [] := by cases ls with
      | nil => rfl
      | cons a l => simp at hj
    cases k <;> rfl
  | succ j ih =>
    cases ls with
    | nil => cases k <;> rfl
    | cons l tl =>
      simp only [List.length_cons] at hj hk
      obtain ⟨k, rfl⟩ : ∃ k', k = k' + 1 := ⟨k - 1, by omega⟩
      have hsec : ∀ (f : List (List F) → St F),
          andThen (section_ N st tl) (fun m rest => loop N j (f m) rest) =
          andThen (section_ N st tl) (fun m rest => loop N k (f m) rest) := by
        intro f
        cases hs : section_ N st tl with
        | error e => rfl
        | ok p =>
          have := section_length N st tl p.1 p.2 hs
          exact ih k _ _ (by omega) (by omega)
      have hload :
          andThen (loading N st tl) (fun m rest => loop N j { st with load := some m } rest) =
          andThen (loading N st tl) (fun m rest => loop N k { st with load := some m } rest) := by
        cases hs : loading N st tl with
        | error e => rfl
        | ok p =>
          have := loading_length N st tl p.1 p.2 hs
          exact ih k _ _ (by omega) (by omega)
      rw [loop, loop, hsec (fun m => { st with mass := some m }), hsec (fun m => { st with stiff := some m }),
        hsec (fun m => { st with damp := some m }), hload]
      split
      · rfl
      · split
        · rfl
        · split
          · rfl
          · split
            · rfl
            · cases other N st (lower l) with
              | error e => rfl
              | ok s => exact ih k _ _ (by omega) (by omega)

/-- the loop with enough fuel -/
def run (N : Num F) (st : St F) (ls : List Str) : Except Err (St F) := loop N ls.length st ls

theorem loop_eq_run (N : Num F) (k : Nat) (st : St F) (ls : List Str) (h : ls.length ≤ k) :
    loop N k st ls = run N st ls := loop_fuel N k ls.length st ls h (Nat.le_refl _)

theorem run_blank (N : Num F) (st : St F) (tl : List Str) : run N st ([] :: tl) = run N st tl := rfl

theorem run_other (N : Num F) (st st' : St F) (l : Str) (tl : List Str)
    (h1 : startsWith (lower l) "!mass".toList = false) (h2 : startsWith (lower l) "!stiffness".toList = false)
    (h3 : startsWith (lower l) "!damping".toList = false) (h4 : startsWith (lower l) "!loading".toList = false)
    (h : other N st (lower l) = .ok st') : run N st (l :: tl) = run N st' tl := by
  rw [run, List.length_cons, loop, h1, h2, h3, h4, h]
  rfl

theorem run_other_error (N : Num F) (st : St F) (l : Str) (tl : List Str) (e : Err)
    (h1 : startsWith (lower l) "!mass".toList = false) (h2 : startsWith (lower l) "!stiffness".toList = false)
    (h3 : startsWith (lower l) "!damping".toList = false) (h4 : startsWith (lower l) "!loading".toList = false)
    (h : other N st (lower l) = .error e) : run N st (l :: tl) = .error e := by
  rw [run, List.length_cons, loop, h1, h2, h3, h4, h]
  rfl

theorem run_mass (N : Num F) (st : St F) (tl : List Str) (m : List (List F)) (rest : List Str)
    (h : section_ N st tl = .ok (m, rest)) :
    run N st ("!Mass Matrix".toList :: tl) = run N { st with mass := some m } rest := by
  rw [run, List.length_cons, loop, if_pos (by decide), h]
  exact loop_eq_run _ _ _ _ (section_length _ _ _ _ _ h)

theorem run_stiff (N : Num F) (st : St F) (tl : List Str) (m : List (List F)) (rest : List Str)
    (h : section_ N st tl = .ok (m, rest)) :
    run N st ("!Stiffness Matrix".toList :: tl) = run N { st with stiff := some m } rest := by
  rw [run, List.length_cons, loop, if_neg (by decide), if_pos (by decide), h]
  exact loop_eq_run _ _ _ _ (section_length _ _ _ _ _ h)

theorem run_damp (N : Num F) (st : St F) (tl : List Str) (m : List (List F)) (rest : List Str)
    (h : section_ N st tl = .ok (m, rest)) :
    run N st ("!Damping Matrix".toList :: tl) = run N { st with damp := some m } rest := by
  rw [run, List.length_cons, loop, if_neg (by decide), if_neg (by decide), if_pos (by decide), h]
  exact loop_eq_run _ _ _ _ (section_length _ _ _ _ _ h)

theorem run_load (N : Num F) (st : St F) (tl : List Str) (m : List (List F)) (rest : List Str)
    (h : loading N st tl = .ok (m, rest)) :
    run N st ("!Loading and Wave Elevation".toList :: tl) = run N { st with load := some m } rest := by
  rw [run, List.length_cons, loop, if_neg (by decide), if_neg (by decide), if_neg (by decide),
    if_pos (by decide), h]
  exact loop_eq_run _ _ _ _ (loading_length _ _ _ _ _ h)

theorem run_load_error (N : Num F) (st : St F) (tl : List Str) (e : Err) (h : loading N st tl = .error e) :
    run N st ("!Loading and Wave Elevation".toList :: tl) = .error e := by
  rw [run, List.length_cons, loop, if_neg (by decide), if_neg (by decide), if_neg (by decide),
    if_pos (by decide), h]
  rfl

/-! ### fields and rows -/

/-- the text of `x` in a matrix is read as `y`: blanks, at least one, then a word -/
def Field (N : Num F) (x y : F) : Prop :=
  ∃ k w, N.e8 x = List.replicate (k + 1) ' ' ++ w ∧ IsWord w ∧ N.parse w = some y

theorem words_flat (N : Num F) (rd : F → F) (r : List F) (h : ∀ x ∈ r, Field N x (rd x)) :
    ∃ ws : List Str, words (rowText N r) = ws ∧
      List.Forall₂ (fun x w => N.parse w = some (rd x)) r ws := by
  induction r with
  | nil => exact ⟨[], rfl, .nil⟩
  | cons x r ih =>
    obtain ⟨k, w, he, hw, hp⟩ := h x List.mem_cons_self
    obtain ⟨ws, hws, hf⟩ := ih (fun y hy => h y (List.mem_cons_of_mem _ hy))
    refine ⟨w :: ws, ?_, .cons hp hf⟩
    have hblank : ∀ (n : Nat) (s : Str), words (List.replicate n ' ' ++ s) = words s := by
      intro n s
      induction n with
      | zero => rfl
      | succ n ih => rw [List.replicate_succ, List.cons_append, words_cons_ws _ _ (by decide), ih]
    have hr : rowText N (x :: r) = List.replicate (k + 1) ' ' ++ (w ++ rowText N r) := by
      simp [rowText, he]
    rw [hr, hblank]
    cases r with
    | nil =>
      have : ws = [] := by cases hf; rfl
      subst this
      simp [rowText, words_word hw]
    | cons y r' =>
      obtain ⟨k', w', he', _, _⟩ := h y (by simp)
      have hy : rowText N (y :: r') = ' ' :: (List.replicate k' ' ' ++ w' ++ rowText N r') := by
        simp [rowText, he', List.replicate_succ]
      rw [hy] at hws ⊢
      rw [words_word_cons hw _ _ (by decide)]
      rw [words_cons_ws _ _ (by decide)] at hws
      rw [hws]

theorem parseRow_ok (N : Num F) (rd : F → F) (r : List F) (h : ∀ x ∈ r, Field N x (rd x)) :
    parseRow N (rowText N r) = .ok (r.map rd) := by
  obtain ⟨ws, hws, hf⟩ := words_flat N rd r h
  rw [parseRow, hws]
  clear hws h
  induction hf with
  | nil => rfl
  | cons hp _ ih => rw [List.foldr_cons, ih, hp]; rfl

theorem readmat_ok (N : Num F) (rd : F → F) (m : Nat) (rows : List (List F)) (rest : List Str)
    (hlen : ∀ r ∈ rows, r.length = m) (h : ∀ r ∈ rows, ∀ x ∈ r, Field N x (rd x)) :
    readmat N m rows.length (rows.map (rowText N) ++ rest) = .ok (rows.map (·.map rd)) := by
  induction rows with
  | nil => simp [readmat]
  | cons r rows ih =>
    have h1 : fitRow m (r.map rd) = .ok (r.map rd) := by
      unfold fitRow
      rw [if_pos (by rw [List.length_map]; exact hlen r List.mem_cons_self)]
    rw [List.map_cons, List.cons_append, List.length_cons, readmat,
      parseRow_ok N rd r (h r List.mem_cons_self)]
    simp only [h1]
    rw [ih (fun q hq => hlen q (List.mem_cons_of_mem _ hq)) (fun q hq => h q (List.mem_cons_of_mem _ hq))]
    rfl

/-! ### the lines with a colon -/

theorem parseNat_text (n : Nat) : parseNat (' ' :: natText n) = .ok n := by
  have hw : IsWord (natText n) := by
    refine ⟨Nat.toDigits_ne_nil, ?_⟩
    intro c hc
    have := toDigits_digit n c hc
    exact (digit_facts c this).1
  have hst : strip (' ' :: natText n) = natText n := by
    have : strip (' ' :: natText n) = strip (natText n) := rfl
    rw [this, strip_word hw]
  rw [parseNat, hst, if_pos ⟨hw.1, List.all_eq_true.2 (toDigits_digit n)⟩]
  congr 1
  exact Nat.ofDigitChars_toDigits (by decide) (by decide)

theorem natText_colon (n : Nat) : ':' ∉ natText n := by
  intro h
  exact absurd (toDigits_digit n _ h) (by decide)

theorem lower_natText (n : Nat) : lower (natText n) = natText n := lower_digits _ (toDigits_digit n)

theorem afterColon_of (a b : Str) (ha : ':' ∉ a) (hb : ':' ∉ b) : afterColon (a ++ ':' :: b) = .ok b := by
  rw [afterColon, splitOn_append _ _ _ ha, splitOn_noSep _ _ hb]
  rfl

/-- the line `!Dimension: n` -/
def dimLine (n : Nat) : Str := "!Dimension: ".toList ++ natText n

theorem section_dim (N : Num F) (rd : F → F) (st : St F) (n : Nat) (hst : st.nDOF = some n) (m : List (List F))
    (hm : square n m = true) (h : ∀ r ∈ m, ∀ x ∈ r, Field N x (rd x)) (rest : List Str) :
    ∃ rest', section_ N st (dimLine n :: (matLines N m ++ rest)) = .ok (m.map (·.map rd), rest') ∧
      ∀ st', run N st' rest' = run N st' rest := by
  simp only [square, Bool.and_eq_true, beq_iff_eq, List.all_eq_true] at hm
  have hc : afterColon (dimLine n) = .ok (' ' :: natText n) := by
    have : dimLine n = "!Dimension".toList ++ ':' :: ' ' :: natText n := rfl
    rw [this, afterColon_of _ _ (by decide) (by
      intro h
      rcases List.mem_cons.1 h with h | h
      · exact absurd h (by decide)
      · exact natText_colon n h)]
  simp only [section_, hc, parseNat_text, hst, ne_eq, not_true, if_false]
  cases m with
  | nil =>
    have hn : n = 0 := by simpa using hm.1.symm
    subst hn
    exact ⟨_, rfl, fun st' => run_blank N st' rest⟩
  | cons r m' =>
    have hr := readmat_ok N rd n (r :: m') rest (fun q hq => by rw [hm.2 q hq, hm.1]) h
    rw [hm.1] at hr
    have : matLines N (r :: m') = (r :: m').map (rowText N) := rfl
    rw [this, hr]
    refine ⟨rest, ?_, fun _ => rfl⟩
    rw [List.drop_append_of_le_length (by rw [List.length_map]; omega), List.drop_of_length_le (by
      rw [List.length_map]; omega)]
    rfl

end Verif.ExtPtfm
