import Verif.Spec.HtcHydro
import Verif.Lemmas.HtcAdd
import Verif.Lemmas.HtcName
/-!
# Lemmas on water properties of HAWC2 files
-/
namespace Verif.HtcHydro
open Verif.Py Verif.HtcEdit Verif.HtcAdd

theorem mem_put {α : Type} (k : Str) (v : α) (d : List (Str × α)) (q : Str × α) (h : q ∈ put k v d) : q ∈ d ∨ q = (k, v) := by
  induction d with
  | nil => rw [put, List.mem_singleton] at h; exact Or.inr h
  | cons a d ih =>
    obtain ⟨a, b⟩ := a
    rw [put] at h
    by_cases e : a = k
    · rw [if_pos e, List.mem_cons] at h
      rcases h with h | h
      · exact Or.inr (by rw [h, e])
      · exact Or.inl (List.mem_cons_of_mem _ h)
    · rw [if_neg e, List.mem_cons] at h
      rcases h with h | h
      · exact Or.inl (by rw [h]; exact List.mem_cons_self ..)
      · exact (ih h).imp (List.mem_cons_of_mem _) id

theorem assign_lines {V : Type} (d : Kids V) (k b : Str) (v : List V) (hk : LineOrNone d k) (hb : LineOrNone d b) :
    LineOrNone (assign k v d).1 b := by
  rw [assign]
  unfold setAttr
  by_cases ha : k ∈ attrs
  · rw [if_pos ha]; exact hb
  rw [if_neg ha]
  cases hl : look k d with
  | none =>
    intro q hq e
    rcases mem_put _ _ _ _ hq with h | h
    · exact hb q h e
    · exact ⟨_, _, _, by rw [h]⟩
  | some x =>
    obtain ⟨n, w, c, hx⟩ := hk _ (look_mem k d x hl) rfl
    simp only at hx
    subst hx
    intro q hq e
    rcases mem_put _ _ _ _ hq with h | h
    · exact hb q h e
    · exact ⟨_, _, _, by rw [h]⟩

theorem valuesAt_kids {V : Type} (d kids : Kids V) (k : Str) (p : List Str) (h : SecOrNone d k kids) : valuesAt (k :: p) d = valuesAt p kids := by
  rcases h with h | ⟨h, rfl⟩
  · exact valuesAt_sec k p d kids h
  · rw [valuesAt_cons, (look_none_iff k d).2 h]
    cases p <;> rfl

theorem ensure_spec {V : Type} (isNum : Str → Bool) (d kids : Kids V) (k : Str) (f : Kids V → Kids V × Option Err) (h : SecOrNone d k kids)
    (h1 : k ≠ "output".toList) (h2 : ¬ "output_at_time".toList <+: k) (h3 : strip k = k) :
    (ensure isNum d k f).2 = (f kids).2 ∧ HasSec (ensure isNum d k f).1 k (f kids).1 ∧ ∀ k', k' ≠ k → look k' (ensure isNum d k f).1 = look k' d := by
  rcases h with h | ⟨h, rfl⟩
  · have h' := h
    obtain ⟨x, hx, -⟩ := h'
    have hl : (if false = true then none else look k d) = some x := by rw [if_neg (by decide), look_find, hx]
    have e : addSection isNum d k [] none false = .ok (d, x) := by
      unfold addSection
      rw [hl]
    rw [ensure, e]
    exact HtcName.within_all d kids k f h
  · have e := addSection_new isNum d k [] none false _ (newSection_plain isNum k none h1 h2) (Or.inl h)
    rw [Option.getD_none, h3, nameOf, Htc.newKey, if_pos h] at e
    rw [ensure, e]
    have hs : HasSec (d ++ [(k, Item.sec k [] [] [])]) k [] := by
      refine ⟨.sec k [] [] [], ?_, Or.inl ⟨k, [], [], rfl⟩⟩
      rw [← look_find, look_append, (look_none_iff k d).2 h]
      simp [look]
    obtain ⟨a1, a2, a3⟩ := HtcName.within_all (d ++ [(k, Item.sec k [] [] [])]) [] k f hs
    refine ⟨a1, a2, fun k' hk => ?_⟩
    show look k' (within (d ++ [(k, Item.sec k [] [] [])]) k f).1 = look k' d
    rw [a3 k' hk, look_append]
    simp [look, Ne.symm hk]

theorem setWater_sets {V : Type} (p : Kids V) (mud mwl g rho : V) (hl : ∀ k ∈ ["mudlevel", "mwl", "gravity", "rho"], LineOrNone p k.toList) :
    ∃ p', setWater mud mwl g rho p = (p', none) ∧ valuesAt ["mudlevel".toList] p' = some [mud] ∧ valuesAt ["mwl".toList] p' = some [mwl] ∧
      valuesAt ["gravity".toList] p' = some [g] ∧ valuesAt ["rho".toList] p' = some [rho] ∧
      ∀ q, (∀ k ∈ ["mudlevel", "mwl", "gravity", "rho"], q ≠ [k.toList]) → valuesAt q p' = valuesAt q p := by
  have l1 := hl "mudlevel" (by decide)
  have l2 := hl "mwl" (by decide)
  have l3 := hl "gravity" (by decide)
  have l4 := hl "rho" (by decide)
  obtain ⟨-, s1⟩ := assign_sets p "mudlevel".toList [mud] (by decide +kernel) l1
  have m2 := assign_lines p _ _ [mud] l1 l2
  have m3 := assign_lines p _ _ [mud] l1 l3
  have m4 := assign_lines p _ _ [mud] l1 l4
  generalize hp1 : (assign "mudlevel".toList [mud] p).1 = p1 at s1 m2 m3 m4
  obtain ⟨-, s2⟩ := assign_sets p1 "mwl".toList [mwl] (by decide +kernel) m2
  have n3 := assign_lines p1 _ _ [mwl] m2 m3
  have n4 := assign_lines p1 _ _ [mwl] m2 m4
  generalize hp2 : (assign "mwl".toList [mwl] p1).1 = p2 at s2 n3 n4
  obtain ⟨-, s3⟩ := assign_sets p2 "gravity".toList [g] (by decide +kernel) n3
  have o4 := assign_lines p2 _ _ [g] n3 n4
  generalize hp3 : (assign "gravity".toList [g] p2).1 = p3 at s3 o4
  obtain ⟨-, s4⟩ := assign_sets p3 "rho".toList [rho] (by decide +kernel) o4
  refine ⟨(assign "rho".toList [rho] p3).1, ?_, ?_, ?_, ?_, s4.here, ?_⟩
  · subst hp1 hp2 hp3
    rfl
  · rw [s4.other _ (by decide), s3.other _ (by decide), s2.other _ (by decide), s1.here]
  · rw [s4.other _ (by decide), s3.other _ (by decide), s2.here]
  · rw [s4.other _ (by decide), s3.here]
  · intro q hq
    rw [s4.other q (hq "rho" (by decide)), s3.other q (hq "gravity" (by decide)), s2.other q (hq "mwl" (by decide)), s1.other q (hq "mudlevel" (by decide))]

end Verif.HtcHydro
