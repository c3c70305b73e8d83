import Verif.Lemmas.HtcMann
import Verif.Lemmas.HtcHydro
/-!
# Mann turbulence in HAWC2 files

Property C262.
-/
namespace Verif.HtcMann
open Verif.Py Verif.HtcEdit Verif.HtcAdd Verif.HtcHydro

/-- **C262**: `add_mann_turbulence` sets the turbulence format, the parameters, the files and the boxes, in the sections that are there or in new
ones; the scaling lines are set if asked for, and deleted otherwise; no other value changes -/
theorem C262 {V : Type} (isNum : Str → Bool) (d wind mann : Kids V) (b : Box V) (hw : SecOrNone d "wind".toList wind)
    (hm : SecOrNone wind "mann".toList mann) (hf : LineOrNone wind "turb_format".toList) (hl : ∀ s ∈ mannLines b, LineOrNone mann s.1) :
    ∃ d', addMann isNum d b = (d', none) ∧ valuesAt formatPath d' = some [b.one] ∧ (∀ s ∈ mannLines b, valuesAt (mannPath s.1) d' = s.2) ∧
      ∀ q, q ≠ formatPath → (∀ s ∈ mannLines b, q ≠ mannPath s.1) → valuesAt q d' = valuesAt q d := by
  obtain ⟨w1, w2⟩ := setMann_sets b mann hl
  obtain ⟨n, c, f1, -, f3, -⟩ := setAttr_look wind "turb_format".toList [b.one] (by decide +kernel) hf
  have fp := setAttr_puts wind "turb_format".toList [b.one] (by decide +kernel) hf
  have hm' : SecOrNone (setAttr wind "turb_format".toList [b.one]) "mann".toList mann := by
    have e := f3 "mann".toList (by decide)
    rcases hm with h | ⟨h, rfl⟩
    · exact Or.inl (hasSec_look _ _ _ _ e h)
    · exact Or.inr ⟨(look_none_iff _ _).1 (e.trans ((look_none_iff _ _).2 h)), rfl⟩
  obtain ⟨a1, a2, a3⟩ := ensure_spec isNum _ mann "mann".toList (fun m => (setMann b m, none)) hm' (by decide) (by decide) (by decide)
  obtain ⟨b1, b2, b3⟩ := ensure_spec isNum d wind "wind".toList
    (fun w => ensure isNum (setAttr w "turb_format".toList [b.one]) "mann".toList fun m => (setMann b m, none)) hw (by decide) (by decide) (by decide)
  refine ⟨(addMann isNum d b).1, Prod.ext rfl (b1.trans a1), ?_, ?_, ?_⟩
  · rw [formatPath, addMann, valuesAt_sec _ _ _ _ b2, valuesAt_look _ _ _ _ (a3 "turb_format".toList (by decide)), fp.here]
  · intro s hs
    rw [mannPath, addMann, valuesAt_sec _ _ _ _ b2, valuesAt_sec _ _ _ _ a2, w1 s hs]
  · intro q hq hq'
    cases q with
    | nil => rfl
    | cons k q =>
      by_cases hk : k = "wind".toList
      · subst hk
        rw [addMann, valuesAt_sec _ _ _ _ b2, valuesAt_kids d wind _ q hw]
        cases q with
        | nil => rfl
        | cons k q =>
          by_cases hk : k = "mann".toList
          · subst hk
            rw [valuesAt_sec _ _ _ _ a2, valuesAt_kids wind mann _ q hm]
            exact w2 q fun s hs e => hq' s hs (by rw [mannPath, e])
          · rw [valuesAt_look k q _ _ (a3 k hk)]
            exact fp.other _ fun e => hq (by rw [formatPath, e])
      · exact valuesAt_look k q _ _ (b3 k hk)

/-! Concrete cases -/

example : SecOrNone ([("wind".toList, .sec "wind".toList [] [] [("wsp".toList, .line "wsp".toList [10] [])])] : Kids Nat) "wind".toList
    [("wsp".toList, .line "wsp".toList [10] [])] := Or.inl ⟨_, rfl, Or.inl ⟨_, _, _, rfl⟩⟩

example : SecOrNone ([("wsp".toList, .line "wsp".toList [10] [])] : Kids Nat) "mann".toList [] := Or.inr ⟨by decide, rfl⟩

/-- a box of turbulence -/
def toyBox : Box Nat := ⟨1, [29, 1, 3, 1001, 1], [5], [6], [7], [8, 1], [9, 2], [10, 3], false, none⟩

/-- a file that has a scaling line -/
def toyFile : Kids Nat := [("wind".toList, .sec "wind".toList [] [] [("wsp".toList, .line "wsp".toList [10] []),
  ("mann".toList, .sec "mann".toList [] [] [("dont_scale".toList, .line "dont_scale".toList [1] [])])])]

example : (valuesAt (mannPath "box_dim_v".toList) (addMann (fun _ => true) toyFile toyBox).1, valuesAt (mannPath "dont_scale".toList) toyFile,
    valuesAt (mannPath "dont_scale".toList) (addMann (fun _ => true) toyFile toyBox).1) = (some [9, 2], some [1], none) := by decide +kernel

end Verif.HtcMann
