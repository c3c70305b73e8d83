import Verif.Spec.HtcInclude
import Verif.Py.Dec
import Verif.Lemmas.Str
/-!
# Lemmas on files that continue in other files
-/
namespace Verif.HtcInclude
open Verif.Py

theorem expand_append (E : Env) (rec : Str → Except Err (List Str × List Str)) (a b ra rb fa fb : List Str)
    (ha : expand E rec a = .ok (ra, fa)) (hb : expand E rec b = .ok (rb, fb)) :
    expand E rec (a ++ b) = .ok (ra ++ rb, fa ++ fb) := by
  induction a generalizing ra fa with
  | nil => rw [expand] at ha; cases ha; exact hb
  | cons l a ih =>
    rw [expand] at ha
    rw [List.cons_append, expand]
    by_cases hi : isInclude l = true
    · rw [if_pos hi] at ha ⊢
      cases h1 : locate E (incName l) with
      | error e => rw [h1] at ha; cases ha
      | ok p =>
        simp only [h1] at ha ⊢
        cases h2 : rec p with
        | error e => rw [h2] at ha; cases ha
        | ok x =>
          obtain ⟨inc, fs⟩ := x
          simp only [h2] at ha ⊢
          cases h3 : expand E rec a with
          | error e => rw [h3] at ha; cases ha
          | ok y =>
            obtain ⟨r, fs'⟩ := y
            simp only [h3] at ha
            cases ha
            rw [ih r fs' h3]
            simp [List.append_assoc]
    · rw [if_neg hi] at ha ⊢
      cases h3 : expand E rec a with
      | error e => rw [h3] at ha; cases ha
      | ok y =>
        obtain ⟨r, fs'⟩ := y
        simp only [h3, Except.ok.injEq, Prod.mk.injEq] at ha
        obtain ⟨rfl, rfl⟩ := ha
        rw [ih r fs' h3]
        rfl

theorem expand_plain (E : Env) (rec : Str → Except Err (List Str × List Str)) (a : List Str) (h : ∀ l ∈ a, isInclude l = false) :
    expand E rec a = .ok (a, []) := by
  induction a with
  | nil => rfl
  | cons l a ih =>
    rw [expand, if_neg (by simp [h l (by simp)]), ih (fun l hl => h l (by simp [hl]))]

theorem expand_none (E : Env) (rec : Str → Except Err (List Str × List Str))
    (hrec : ∀ p r fs, rec p = .ok (r, fs) → ∀ l ∈ r, isInclude l = false)
    (a r fs : List Str) (h : expand E rec a = .ok (r, fs)) : ∀ l ∈ r, isInclude l = false := by
  induction a generalizing r fs with
  | nil => rw [expand] at h; cases h; simp
  | cons l a ih =>
    rw [expand] at h
    by_cases hi : isInclude l = true
    · rw [if_pos hi] at h
      cases h1 : locate E (incName l) with
      | error e => rw [h1] at h; cases h
      | ok p =>
        simp only [h1] at h
        cases h2 : rec p with
        | error e => rw [h2] at h; cases h
        | ok x =>
          obtain ⟨inc, fs⟩ := x
          simp only [h2] at h
          cases h3 : expand E rec a with
          | error e => rw [h3] at h; cases h
          | ok y =>
            obtain ⟨r', fs'⟩ := y
            simp only [h3] at h
            cases h
            intro x hx
            rcases List.mem_append.1 hx with hx | hx
            · exact hrec p inc fs h2 x ((List.takeWhile_prefix _).subset hx)
            · exact ih r' fs' h3 x hx
    · rw [if_neg hi] at h
      cases h3 : expand E rec a with
      | error e => rw [h3] at h; cases h
      | ok y =>
        obtain ⟨r', fs'⟩ := y
        simp only [h3, Except.ok.injEq, Prod.mk.injEq] at h
        obtain ⟨rfl, rfl⟩ := h
        intro x hx
        rcases List.mem_cons.1 hx with rfl | hx
        · simpa using hi
        · exact ih r' fs' h3 x hx

theorem lower_append (a b : Str) : lower (a ++ b) = lower a ++ lower b := by simp [lower]

theorem toLower_ws (c : Char) (h : isWs c = true) : c.toLower = c := by
  rw [Char.toLower]
  split
  · rename_i hc
    exfalso
    have h1 : 65 ≤ c.toNat ∧ c.toNat ≤ 90 := by
      simp only [ge_iff_le, UInt32.le_iff_toNat_le] at hc
      exact ⟨hc.1, hc.2⟩
    unfold isWs at h
    simp only [Bool.or_eq_true, beq_iff_eq, decide_eq_true_eq, Bool.and_eq_true] at h
    omega
  · rfl

theorem lstrip_blank (blank s : Str) (hb : ∀ c ∈ blank, isWs c = true) (hs : ∀ c, s.head? = some c → isWs c = false) :
    lstrip (blank ++ s) = s := by
  induction blank with
  | nil =>
    cases s with
    | nil => rfl
    | cons c s =>
      show List.dropWhile isWs (c :: s) = _
      rw [List.dropWhile_cons, if_neg (by simp [hs c rfl])]
  | cons c b ih =>
    show List.dropWhile isWs (c :: (b ++ s)) = _
    rw [List.dropWhile_cons, if_pos (hb c (by simp))]
    exact ih (fun c hc => hb c (by simp [hc]))

theorem says_kw (kw : Str) (h : lower kw = "continue_in_file".toList) :
    kw.length = 16 ∧ (∀ s c, (kw ++ s).head? = some c → isWs c = false) ∧ ';' ∉ kw := by
  have hl := congrArg List.length h
  rw [lower, List.length_map] at hl
  refine ⟨hl, ?_, ?_⟩
  · intro s c hc
    cases kw with
    | nil => cases hl
    | cons x kw =>
      cases hc
      cases hw : isWs c with
      | false => rfl
      | true =>
        have : c.toLower = 'c' := by
          have := congrArg List.head? h
          simpa [lower] using this
        rw [toLower_ws c hw] at this
        subst this
        exact hw.symm.trans (by decide)
  · intro hm
    have : (';' : Char).toLower ∈ "continue_in_file".toList := by
      rw [← h, lower]
      exact List.mem_map_of_mem hm
    exact absurd this (by decide)

theorem isPrefixOf_append (a b : Str) : a.isPrefixOf (a ++ b) = true := by
  induction a with
  | nil => cases b <;> rfl
  | cons c a ih => simp [List.isPrefixOf]

theorem says_line (l name : Str) (h : Says l name) : isInclude l = true ∧ incName l = lower name := by
  obtain ⟨⟨kw, blank, tail, rfl, hb, hk⟩, hn, hw, hs⟩ := h
  obtain ⟨hlen, hhead, hsemi⟩ := says_kw kw hk
  constructor
  · rw [isInclude]
    have e : lower (blank ++ kw ++ ' ' :: name ++ ';' :: tail) =
        blank ++ ("continue_in_file".toList ++ lower (' ' :: name ++ ';' :: tail)) := by
      rw [List.append_assoc, List.append_assoc, lower_append, lower_append, hk]
      congr 1
      rw [lower]
      exact (List.map_congr_left (g := id) (fun c hc => toLower_ws c (hb c hc))).trans (List.map_id _)
    rw [e, lstrip_blank blank _ hb (by intro c hc; cases hc; decide), startsWith]
    exact isPrefixOf_append _ _
  · rw [incName]
    congr 1
    have e : blank ++ kw ++ ' ' :: name ++ ';' :: tail = blank ++ (kw ++ (' ' :: name ++ ';' :: tail)) := by simp
    rw [e, lstrip_blank blank _ hb (fun c hc => hhead _ c hc)]
    have t : (kw ++ (' ' :: name ++ ';' :: tail)).takeWhile (· ≠ ';') = kw ++ ' ' :: name := by
      have hall : ∀ c ∈ kw ++ ' ' :: name, decide (c ≠ ';') = true := by
        intro c hc
        rcases List.mem_append.1 hc with hc | hc
        · exact decide_eq_true (fun (e : c = ';') => hsemi (e ▸ hc))
        · rcases List.mem_cons.1 hc with rfl | hc
          · decide
          · exact decide_eq_true (fun (e : c = ';') => hs (e ▸ hc))
      have e2 : kw ++ (' ' :: name ++ ';' :: tail) = (kw ++ ' ' :: name) ++ ';' :: tail := by simp
      rw [e2]
      generalize kw ++ ' ' :: name = u at hall
      induction u with
      | nil => simp
      | cons c u ih =>
        rw [List.cons_append, List.takeWhile_cons, if_pos (hall c (by simp)), ih (fun c hc => hall c (by simp [hc]))]
    rw [t, List.drop_left' hlen]
    have : strip (' ' :: name) = strip name := by
      show rstripBy isWs (lstripBy isWs (' ' :: name)) = rstripBy isWs (lstripBy isWs name)
      congr 1
    rw [this]
    exact strip_word ⟨hn, hw⟩

theorem takeWhile_exit (keep rest : List Str) (hk : ∀ x ∈ keep, (lower (lstrip x)).take 4 ≠ "exit".toList)
    (hr : ∀ x, rest.head? = some x → (lower (lstrip x)).take 4 = "exit".toList) :
    (keep ++ rest).takeWhile (fun x => !isExit x) = keep := by
  have hx : ∀ x, isExit x = true ↔ (lower (lstrip x)).take 4 = "exit".toList := by
    intro x
    rw [isExit, startsWith, List.isPrefixOf_iff_prefix, List.prefix_iff_eq_take]
    exact eq_comm
  induction keep with
  | nil =>
    cases rest with
    | nil => rfl
    | cons x rest =>
      rw [List.nil_append, List.takeWhile_cons, (hx x).2 (hr x rfl)]
      rfl
  | cons x keep ih =>
    have : isExit x = false := by
      rw [← Bool.not_eq_true, hx]
      exact hk x (by simp)
    rw [List.cons_append, List.takeWhile_cons, this, ih (fun x h => hk x (by simp [h]))]
    rfl

end Verif.HtcInclude
