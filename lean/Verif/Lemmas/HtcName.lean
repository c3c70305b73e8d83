import Verif.Spec.HtcName
import Verif.Lemmas.HtcEdit
/-!
# Lemmas on the names in HAWC2 files
-/
namespace Verif.HtcName
open Verif.Py Verif.HtcEdit

theorem setFirst_sets {V : Type} (d : Kids V) (f w : V) (ws : List V) (h : valuesAt ["visualization".toList] d = some (w :: ws)) :
    (setFirst f d).2 = none ∧ Sets d (setFirst f d).1 ["visualization".toList] (f :: ws) := by
  rw [valuesAt_cons] at h
  cases hl : look "visualization".toList d with
  | none => rw [hl] at h; cases h
  | some x =>
    rw [hl] at h
    cases x with
    | sec _ _ _ _ => cases h
    | out _ _ _ _ _ => cases h
    | line n v c =>
      simp only [if_true, Option.some.injEq] at h
      subst h
      have e : setFirst f d = (put "visualization".toList (.line n (f :: ws) c) d, none) := by rw [setFirst, hl]
      rw [e]
      refine ⟨rfl, ?_, ?_⟩
      · rw [valuesAt_cons, look_put, if_pos rfl]; rfl
      · intro p hp
        cases p with
        | nil => rfl
        | cons k p =>
          by_cases hk : k = "visualization".toList
          · subst hk
            have hpn : p ≠ [] := fun e => hp (by rw [e])
            rw [valuesAt_cons, valuesAt_cons, look_put, if_pos rfl, hl]
            simp only [hpn, if_false]
          · exact valuesAt_look k p _ _ (by rw [look_put, if_neg hk])

theorem lineOrNone_values {V : Type} (d : Kids V) (k : Str) (v : List V) (hd : (d.map Prod.fst).Nodup) (h : valuesAt [k] d = some v) : LineOrNone d k := by
  intro q hq e
  have : look k d = some q.2 := by
    clear h
    induction d with
    | nil => cases hq
    | cons r d ih =>
      obtain ⟨a, b⟩ := r
      rw [List.map_cons, List.nodup_cons] at hd
      rcases List.mem_cons.1 hq with rfl | hq
      · rw [look, if_pos e]
      · rw [look, if_neg (fun (e' : a = k) => hd.1 (e' ▸ e ▸ List.mem_map.2 ⟨q, hq, rfl⟩)), ih hd.2 hq]
  rw [valuesAt_cons, this] at h
  cases hx : q.2 with
  | line n v c => exact ⟨n, v, c, rfl⟩
  | sec _ _ _ _ => rw [hx] at h; cases h
  | out _ _ _ _ _ => rw [hx] at h; cases h

theorem look_of_values {V : Type} (d : Kids V) (k : Str) (v : List V) (h : valuesAt [k] d = some v) : (look k d).isSome = true := by
  rw [valuesAt_cons] at h
  cases hl : look k d with
  | none => rw [hl] at h; cases h
  | some _ => rfl

theorem setAttr_keys_nodup {V : Type} (d : Kids V) (k : Str) (v : List V) (ha : k ∉ attrs) (hl : LineOrNone d k) (hd : (d.map Prod.fst).Nodup)
    (hk : k ∈ d.map Prod.fst) : ((assign k v d).1.map Prod.fst) = d.map Prod.fst := by
  obtain ⟨n, c, -, -, -, h4⟩ := setAttr_look d k v ha hl
  rw [assign]
  simp only
  rw [h4, if_pos hk]

theorem hasLog_sec {V : Type} (d kids : Kids V) (k : Str) (hs : HasSec d k kids) : hasLog d k = (look "logfile".toList kids).isSome := by
  obtain ⟨x, h1, h2⟩ := hs
  rw [hasLog, look_find, h1]
  rcases h2 with ⟨n, bc, ec, rfl⟩ | ⟨n, bc, ec, ss, rfl⟩ <;> rfl

theorem hasSec_isSome {V : Type} (d kids : Kids V) (k : Str) (hs : HasSec d k kids) : (look k d).isSome = true := by
  obtain ⟨x, h1, -⟩ := hs
  rw [look_find, h1]
  rfl

/-- the changes of the sections of a file -/
theorem cons_ne (k : Str) {p q : List Str} (h : k :: p ≠ k :: q) : p ≠ q := fun e => h (by rw [e])

theorem within_all {V : Type} (d kids : Kids V) (k : Str) (f : Kids V → Kids V × Option Err) (h : HasSec d k kids) :
    (within d k f).2 = (f kids).2 ∧ HasSec (within d k f).1 k (f kids).1 ∧ ∀ k', k' ≠ k → look k' (within d k f).1 = look k' d := by
  obtain ⟨x, h1, h2⟩ := h
  have hl : look k d = some x := by rw [look_find, h1]
  rcases h2 with ⟨n, bc, ec, rfl⟩ | ⟨n, bc, ec, ss, rfl⟩
  · rw [within, hl]
    refine ⟨rfl, ⟨.sec n bc ec (f kids).1, ?_, Or.inl ⟨n, bc, ec, rfl⟩⟩, ?_⟩
    · rw [← look_find, look_put, if_pos rfl]
    · intro k' hk'
      rw [look_put, if_neg hk']
  · rw [within, hl]
    refine ⟨rfl, ⟨.out n bc ec (f kids).1 ss, ?_, Or.inr ⟨n, bc, ec, ss, rfl⟩⟩, ?_⟩
    · rw [← look_find, look_put, if_pos rfl]
    · intro k' hk'
      rw [look_put, if_neg hk']

/-- the results at the end of `set_name` -/
theorem res_sets {V : Type} (d out : Kids V) (v : V) (ho : HasSec d "output".toList out) (hl : LineOrNone out "filename".toList) :
    ∃ d', ifIn "output".toList (fun d => within d "output".toList (assign "filename".toList [v])) d = (d', none) ∧ Sets d d' resPath [v] := by
  obtain ⟨e, s, -, -⟩ := within_sets d out "output".toList (assign "filename".toList [v]) _ _ ho (assign_sets out _ _ (by decide +kernel) hl)
  refine ⟨_, ?_, s⟩
  rw [ifIn, if_pos (hasSec_isSome d out _ ho)]
  exact Prod.ext rfl e

end Verif.HtcName
