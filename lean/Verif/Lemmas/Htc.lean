import Verif.Model.Htc
import Verif.Lemmas.FastLine
import Mathlib.Tactic
/-! # Lemmas on HTC files: keys, termination, unterminated sections -/
namespace Verif.Htc
open Verif.Py Verif.FastLine

/-! ## keys -/

theorem showInt_inj {a b : Int} (h : showInt a = showInt b) : a = b := by
  rw [← pyInt_showInt a, ← pyInt_showInt b, h]

theorem freeKey_form (keys : List Str) (name : Str) (n k : Nat) :
    ∃ j : Nat, k ≤ j ∧ freeKey keys name n k = name ++ "__".toList ++ showInt j := by
  induction n generalizing k with
  | zero => exact ⟨k, le_rfl, rfl⟩
  | succ n ih =>
    unfold freeKey
    split
    · obtain ⟨j, h1, h2⟩ := ih (k + 1)
      exact ⟨j, by omega, h2⟩
    · exact ⟨k, le_rfl, rfl⟩

theorem freeKey_all (keys : List Str) (name : Str) (n k : Nat) (h : freeKey keys name n k ∈ keys) :
    ∀ j, k ≤ j → j ≤ k + n → name ++ "__".toList ++ showInt (j : Nat) ∈ keys := by
  induction n generalizing k with
  | zero =>
    intro j h1 h2
    have : j = k := by omega
    subst this
    exact h
  | succ n ih =>
    unfold freeKey at h
    split at h
    · rename_i hk
      intro j h1 h2
      by_cases hj : j = k
      · subst hj; exact hk
      · exact ih (k + 1) h j (by omega) (by omega)
    · rename_i hk
      exact absurd h hk

theorem freeKey_not_mem (keys : List Str) (name : Str) (k : Nat) :
    freeKey keys name keys.length k ∉ keys := by
  intro h
  have hall := freeKey_all keys name _ k h
  have hsub : ((List.range (keys.length + 1)).map (fun i => name ++ "__".toList ++ showInt ((k + i : Nat) : Int)))
      ⊆ keys := by
    intro s hs
    obtain ⟨i, hi, rfl⟩ := List.mem_map.mp hs
    exact hall (k + i) (by omega) (by have := List.mem_range.mp hi; omega)
  have hnd : ((List.range (keys.length + 1)).map
      (fun i => name ++ "__".toList ++ showInt ((k + i : Nat) : Int))).Nodup := by
    refine List.Nodup.map ?_ List.nodup_range
    intro i j hij
    have := showInt_inj (List.append_cancel_left hij)
    omega
  have := (List.subperm_of_subset hnd hsub).length_le
  simp at this

theorem newKey_not_mem (keys : List Str) (name : Str) : newKey keys name ∉ keys := by
  unfold newKey
  split
  · assumption
  · exact freeKey_not_mem keys name 2

theorem newKey_form (keys : List Str) (name : Str) :
    newKey keys name = name ∨ ∃ j : Nat, 2 ≤ j ∧ newKey keys name = name ++ "__".toList ++ showInt j := by
  unfold newKey
  split
  · exact Or.inl rfl
  · exact Or.inr (freeKey_form keys name _ 2)

/-! ## number of steps -/

theorem parseNext_rest (l : Str) (rest : List Str) : (parseNext l rest).2.2 = rest.dropWhile isComment := rfl

theorem lineFrom_rest {P : Flt} {l : Str} {rest : List Str} {nd : Node P.F} {r : List Str}
    (h : lineFrom P l rest = .ok (nd, r)) : r = rest.dropWhile isComment := by
  unfold lineFrom at h
  simp only [parseNext] at h
  split at h
  · injection h with h; injection h with _ h; exact h.symm
  · split at h
    · exact nomatch h
    · injection h with h; injection h with _ h; exact h.symm

theorem sensorFrom_rest {P : Flt} {l : Str} {rest : List Str} {s : Sensor P.F} {r : List Str}
    (h : sensorFrom P l rest = .ok (s, r)) : r = rest.dropWhile isComment := by
  unfold sensorFrom at h
  simp only [parseNext] at h
  split at h
  · split at h
    · exact nomatch h
    · injection h with h; injection h with _ h; exact h.symm
  · injection h with h; injection h with _ h; exact h.symm

theorem lineFromLine_rest {P : Flt} {k : Kind P.F} {l : Str} {rest : List Str} {x : Node P.F ⊕ Sensor P.F}
    {r : List Str} (h : lineFromLine P k l rest = .ok (x, r)) : r = rest.dropWhile isComment := by
  have hl : ∀ {x r}, (lineFrom P l rest).map (fun p => ((.inl p.1 : Node P.F ⊕ Sensor P.F), p.2)) = .ok (x, r) →
      r = rest.dropWhile isComment := by
    intro x r h
    cases h' : lineFrom P l rest with
    | error e => rw [h'] at h; exact nomatch h
    | ok p =>
      rw [h'] at h
      injection h with h
      injection h with _ h
      rw [← h]
      exact lineFrom_rest h'
  have hs : ∀ {x r}, (sensorFrom P l rest).map (fun p => ((.inr p.1 : Node P.F ⊕ Sensor P.F), p.2)) = .ok (x, r) →
      r = rest.dropWhile isComment := by
    intro x r h
    cases h' : sensorFrom P l rest with
    | error e => rw [h'] at h; exact nomatch h
    | ok p =>
      rw [h'] at h
      injection h with h
      injection h with _ h
      rw [← h]
      exact sensorFrom_rest h'
  unfold lineFromLine at h
  cases k with
  | plain => exact hl h
  | output =>
    simp only at h
    split at h
    · exact nomatch h
    · split at h
      · exact hl h
      · exact hs h
  | atTime _ _ =>
    simp only at h
    split at h
    · exact nomatch h
    · split at h
      · exact hl h
      · exact hs h

theorem openSec_rest {P : Flt} {l : Str} {rest : List Str} {k n bc r}
    (h : openSec P l rest = .ok (k, n, bc, r)) : r = rest.dropWhile isComment := by
  unfold openSec at h
  simp only [parseNext] at h
  split at h
  · exact nomatch h
  · injection h with h
    injection h with _ h
    injection h with _ h
    injection h with _ h
    exact h.symm

theorem openKind_ne_fuel (P : Flt) (name : Str) : openKind P name ≠ .error .fuel := by
  unfold openKind
  by_cases h1 : name = "output".toList
  · rw [if_pos h1]; exact nofun
  · rw [if_neg h1]
    by_cases h2 : startsWith name "output_at_time".toList
    · rw [if_pos h2]
      cases words name with
      | nil => exact nofun
      | cons a l =>
        cases l with
        | nil => exact nofun
        | cons b l =>
          cases l with
          | nil => exact nofun
          | cons c l =>
            cases l with
            | nil => simp only; split <;> exact nofun
            | cons d l => exact nofun
    · rw [if_neg h2]; exact nofun

theorem openSec_ne_fuel (P : Flt) (l : Str) (rest : List Str) : openSec P l rest ≠ .error .fuel := by
  intro h
  unfold openSec at h
  simp only [parseNext] at h
  split at h
  · rename_i e he
    injection h with h
    subst h
    exact openKind_ne_fuel P _ he
  · exact nomatch h

theorem length_skipBlank (ls : List Str) : (skipBlank ls).length ≤ ls.length := by
  cases ls with
  | nil => simp [skipBlank]
  | cons l r =>
    simp only [skipBlank]
    split <;> simp

theorem length_dropWhile_le (p : α → Bool) (l : List α) : (l.dropWhile p).length ≤ l.length :=
  (List.dropWhile_sublist p).length_le

/-- what a section leaves is shorter than what it was given -/
theorem secLoop_shorter (P : Flt) : ∀ (n : Nat) (k : Kind P.F) (nm bc : Str) (keys : List Str)
    (items : List (Node P.F)) (sens : List (Sensor P.F)) (ls : List Str) (nd : Node P.F) (r : List Str),
    secLoop P n k nm bc keys items sens ls = .ok (nd, r) → r.length < ls.length := by
  intro n
  induction n with
  | zero => intro k nm bc keys items sens ls nd r h; exact nomatch h
  | succ n ih =>
    intro k nm bc keys items sens ls nd r h
    cases ls with
    | nil => exact nomatch h
    | cons l0 rest0 =>
      have hlen := length_skipBlank (l0 :: rest0)
      simp only [secLoop] at h
      cases hs : skipBlank (l0 :: rest0) with
      | nil => rw [hs] at h; exact nomatch h
      | cons l rest =>
        rw [hs] at h hlen
        simp only [List.length_cons] at hlen ⊢
        simp only at h
        have hdw := length_dropWhile_le isComment rest
        split at h
        · cases ho : openSec P l rest with
          | error e => rw [ho] at h; exact nomatch h
          | ok q =>
            obtain ⟨k', n', bc', rest1⟩ := q
            rw [ho] at h
            simp only at h
            have h1 := openSec_rest ho
            cases hi : secLoop P n k' n' bc' [] [] [] rest1 with
            | error e => rw [hi] at h; exact nomatch h
            | ok q =>
              obtain ⟨nd', rest2⟩ := q
              rw [hi] at h
              have h2 := ih _ _ _ _ _ _ _ _ _ hi
              have h3 := ih _ _ _ _ _ _ _ _ _ h
              rw [h1] at h2
              omega
        · split at h
          · injection h with h
            injection h with _ h
            rw [← h, parseNext_rest]
            omega
          · cases hl : lineFromLine P k l rest with
            | error e => rw [hl] at h; exact nomatch h
            | ok q =>
              obtain ⟨x, rest1⟩ := q
              have h1 := lineFromLine_rest hl
              rw [hl] at h
              cases x with
              | inl nd' =>
                have h3 := ih _ _ _ _ _ _ _ _ _ h
                rw [h1] at h3
                omega
              | inr s =>
                have h3 := ih _ _ _ _ _ _ _ _ _ h
                rw [h1] at h3
                omega

/-- more steps than lines are always enough -/
theorem secLoop_ne_fuel (P : Flt) : ∀ (n : Nat) (k : Kind P.F) (nm bc : Str) (keys : List Str)
    (items : List (Node P.F)) (sens : List (Sensor P.F)) (ls : List Str), ls.length < n →
    secLoop P n k nm bc keys items sens ls ≠ .error .fuel := by
  intro n
  induction n with
  | zero => intro k nm bc keys items sens ls hl; omega
  | succ n ih =>
    intro k nm bc keys items sens ls hl h
    cases ls with
    | nil => exact nomatch h
    | cons l0 rest0 =>
      have hlen := length_skipBlank (l0 :: rest0)
      simp only [secLoop] at h
      cases hs : skipBlank (l0 :: rest0) with
      | nil => rw [hs] at h; exact nomatch h
      | cons l rest =>
        rw [hs] at h hlen
        simp only [List.length_cons] at hlen hl
        simp only at h
        have hdw := length_dropWhile_le isComment rest
        split at h
        · cases ho : openSec P l rest with
          | error e =>
            rw [ho] at h
            simp only at h
            injection h with h
            subst h
            exact openSec_ne_fuel P l rest ho
          | ok q =>
            obtain ⟨k', n', bc', rest1⟩ := q
            rw [ho] at h
            simp only at h
            have h1 := openSec_rest ho
            cases hi : secLoop P n k' n' bc' [] [] [] rest1 with
            | error e =>
              rw [hi] at h
              simp only at h
              injection h with h
              subst h
              exact ih _ _ _ _ _ _ _ (by rw [h1]; omega) hi
            | ok q =>
              obtain ⟨nd', rest2⟩ := q
              rw [hi] at h
              have h2 := secLoop_shorter P _ _ _ _ _ _ _ _ _ _ hi
              rw [h1] at h2
              exact ih _ _ _ _ _ _ _ (by omega) h
        · split at h
          · exact nomatch h
          · cases hl : lineFromLine P k l rest with
            | error e =>
              rw [hl] at h
              simp only at h
              injection h with h
              subst h
              have hfmt : ∀ (f : Str → Except Err (Val P.F)), (∀ w, f w ≠ .error .fuel) →
                  ∀ ws, fmtAll f ws ≠ .error .fuel := by
                intro f hf ws
                induction ws with
                | nil => exact nofun
                | cons w ws ih =>
                  intro he
                  unfold fmtAll at he
                  split at he
                  · rename_i e he'
                    injection he with he
                    subst he
                    exact hf w he'
                  · split at he
                    · rename_i e he'
                      injection he with he
                      subst he
                      exact ih he'
                    · exact nomatch he
              have hw : ∀ b w, fmtWith b P w ≠ .error .fuel := by
                intro b w he
                unfold fmtWith at he
                split at he
                · exact nomatch he
                · split at he <;> exact nomatch he
              have hline : lineFrom P l rest ≠ .error .fuel := by
                intro he
                unfold lineFrom at he
                simp only [parseNext] at he
                split at he
                · exact nomatch he
                · split at he
                  · rename_i e he'
                    injection he with he
                    subst he
                    exact hfmt _ (hw slashes) _ he'
                  · exact nomatch he
              have hsens : sensorFrom P l rest ≠ .error .fuel := by
                intro he
                unfold sensorFrom at he
                simp only [parseNext] at he
                split at he
                · split at he
                  · rename_i e he'
                    injection he with he
                    subst he
                    exact hfmt _ (hw id) _ he'
                  · exact nomatch he
                · exact nomatch he
              have hm1 : (lineFrom P l rest).map (fun p => ((.inl p.1 : Node P.F ⊕ Sensor P.F), p.2)) ≠ .error .fuel := by
                intro he
                cases hc : lineFrom P l rest with
                | error e => rw [hc] at he; injection he with he; subst he; exact hline hc
                | ok q => rw [hc] at he; exact nomatch he
              have hm2 : (sensorFrom P l rest).map (fun p => ((.inr p.1 : Node P.F ⊕ Sensor P.F), p.2)) ≠ .error .fuel := by
                intro he
                cases hc : sensorFrom P l rest with
                | error e => rw [hc] at he; injection he with he; subst he; exact hsens hc
                | ok q => rw [hc] at he; exact nomatch he
              unfold lineFromLine at hl
              cases k with
              | plain => exact hm1 hl
              | output =>
                simp only at hl
                split at hl
                · exact nomatch hl
                · split at hl
                  · exact hm1 hl
                  · exact hm2 hl
              | atTime _ _ =>
                simp only at hl
                split at hl
                · exact nomatch hl
                · split at hl
                  · exact hm1 hl
                  · exact hm2 hl
            | ok q =>
              obtain ⟨x, rest1⟩ := q
              have h1 := lineFromLine_rest hl
              rw [hl] at h
              cases x with
              | inl nd' => exact ih _ _ _ _ _ _ _ (by rw [h1]; omega) h
              | inr s => exact ih _ _ _ _ _ _ _ (by rw [h1]; omega) h

/-- an outcome does not depend on the bound -/
theorem secLoop_mono (P : Flt) : ∀ (n : Nat) (k : Kind P.F) (nm bc : Str) (keys : List Str)
    (items : List (Node P.F)) (sens : List (Sensor P.F)) (ls : List Str),
    secLoop P n k nm bc keys items sens ls ≠ .error .fuel →
    secLoop P (n + 1) k nm bc keys items sens ls = secLoop P n k nm bc keys items sens ls := by
  intro n
  induction n with
  | zero => intro k nm bc keys items sens ls h; exact absurd rfl h
  | succ n ih =>
    intro k nm bc keys items sens ls h
    cases ls with
    | nil => rfl
    | cons l0 rest0 =>
      rw [secLoop] at h
      rw [secLoop, secLoop]
      cases hs : skipBlank (l0 :: rest0) with
      | nil => rfl
      | cons l rest =>
        rw [hs] at h
        simp only at h ⊢
        split
        · rename_i hb
          rw [if_pos hb] at h
          cases ho : openSec P l rest with
          | error e => rfl
          | ok q =>
            obtain ⟨k', n', bc', rest1⟩ := q
            rw [ho] at h
            simp only at h ⊢
            have hne : secLoop P n k' n' bc' [] [] [] rest1 ≠ .error .fuel := by
              intro he
              rw [he] at h
              exact h rfl
            rw [ih _ _ _ _ _ _ _ hne]
            cases hi : secLoop P n k' n' bc' [] [] [] rest1 with
            | error e => rfl
            | ok q =>
              obtain ⟨nd', rest2⟩ := q
              rw [hi] at h
              exact ih _ _ _ _ _ _ _ h
        · rename_i hb
          rw [if_neg hb] at h
          split
          · rfl
          · rename_i he
            rw [if_neg he] at h
            cases hl : lineFromLine P k l rest with
            | error e => rfl
            | ok q =>
              obtain ⟨x, rest1⟩ := q
              rw [hl] at h
              cases x with
              | inl nd' => exact ih _ _ _ _ _ _ _ h
              | inr s => exact ih _ _ _ _ _ _ _ h

theorem secLoop_mono_le (P : Flt) (n m : Nat) (hnm : n ≤ m) (k : Kind P.F) (nm bc : Str) (keys : List Str)
    (items : List (Node P.F)) (sens : List (Sensor P.F)) (ls : List Str)
    (h : secLoop P n k nm bc keys items sens ls ≠ .error .fuel) :
    secLoop P m k nm bc keys items sens ls = secLoop P n k nm bc keys items sens ls := by
  induction m, hnm using Nat.le_induction with
  | base => rfl
  | succ m hm ih => rw [secLoop_mono P m _ _ _ _ _ _ _ (by rw [ih]; exact h), ih]

/-- if some bound works, every bound above the number of lines does -/
theorem secLoop_enough (P : Flt) (n m : Nat) (k : Kind P.F) (nm bc : Str) (keys : List Str)
    (items : List (Node P.F)) (sens : List (Sensor P.F)) (ls : List Str) (hm : ls.length < m) (r)
    (h : secLoop P n k nm bc keys items sens ls = .ok r) :
    secLoop P m k nm bc keys items sens ls = .ok r := by
  have h1 := secLoop_ne_fuel P m k nm bc keys items sens ls hm
  have h2 : secLoop P n k nm bc keys items sens ls ≠ .error .fuel := by rw [h]; exact nofun
  rw [← secLoop_mono_le P m (max n m) (le_max_right _ _) _ _ _ _ _ _ _ h1,
    secLoop_mono_le P n (max n m) (le_max_left _ _) _ _ _ _ _ _ _ h2, h]

end Verif.Htc
