import Verif.Lemmas.HtcHydro
import Verif.Lemmas.HtcAdd
import Verif.Lemmas.HtcName
/-!
# Water properties of HAWC2 files

Property C261.
-/
namespace Verif.HtcHydro
open Verif.Py Verif.HtcEdit Verif.HtcAdd

/-- **C261**: `add_hydro` sets the four water properties, in the sections that are there or in new ones, and changes no other value -/
theorem C261 {V : Type} (isNum : Str → Bool) (d hydro props : Kids V) (mud mwl g rho : V) (hh : SecOrNone d "hydro".toList hydro)
    (hp : SecOrNone hydro "water_properties".toList props) (hl : ∀ k ∈ ["mudlevel", "mwl", "gravity", "rho"], LineOrNone props k.toList) :
    ∃ d', addHydro isNum d mud mwl g rho = (d', none) ∧ valuesAt (water "mudlevel") d' = some [mud] ∧ valuesAt (water "mwl") d' = some [mwl] ∧
      valuesAt (water "gravity") d' = some [g] ∧ valuesAt (water "rho") d' = some [rho] ∧
      ∀ q, (∀ k ∈ ["mudlevel", "mwl", "gravity", "rho"], q ≠ water k) → valuesAt q d' = valuesAt q d := by
  obtain ⟨p', w0, w1, w2, w3, w4, w5⟩ := setWater_sets props mud mwl g rho hl
  obtain ⟨a1, a2, a3⟩ := ensure_spec isNum hydro props "water_properties".toList (setWater mud mwl g rho) hp (by decide) (by decide) (by decide)
  obtain ⟨b1, b2, b3⟩ := ensure_spec isNum d hydro "hydro".toList (fun h => ensure isNum h "water_properties".toList (setWater mud mwl g rho)) hh
    (by decide) (by decide) (by decide)
  rw [w0] at a1 a2
  refine ⟨(addHydro isNum d mud mwl g rho).1, Prod.ext rfl (b1.trans a1), ?_, ?_, ?_, ?_, ?_⟩
  · rw [water, addHydro, valuesAt_sec _ _ _ _ b2, valuesAt_sec _ _ _ _ a2, w1]
  · rw [water, addHydro, valuesAt_sec _ _ _ _ b2, valuesAt_sec _ _ _ _ a2, w2]
  · rw [water, addHydro, valuesAt_sec _ _ _ _ b2, valuesAt_sec _ _ _ _ a2, w3]
  · rw [water, addHydro, valuesAt_sec _ _ _ _ b2, valuesAt_sec _ _ _ _ a2, w4]
  · intro q hq
    cases q with
    | nil => rfl
    | cons k q =>
      by_cases hk : k = "hydro".toList
      · subst hk
        rw [addHydro, valuesAt_sec _ _ _ _ b2, valuesAt_kids d hydro _ q hh]
        cases q with
        | nil => rfl
        | cons k q =>
          by_cases hk : k = "water_properties".toList
          · subst hk
            rw [valuesAt_sec _ _ _ _ a2, valuesAt_kids hydro props _ q hp]
            exact w5 q fun k hm e => hq k hm (by rw [water, e])
          · exact valuesAt_look k q _ _ (a3 k hk)
      · exact valuesAt_look k q _ _ (b3 k hk)

/-! Concrete cases -/

example : SecOrNone ([("wind".toList, .line "wind".toList [1] [])] : Kids Nat) "hydro".toList [] := Or.inr ⟨by decide, rfl⟩

example : SecOrNone ([("hydro".toList, .sec "hydro".toList [] [] [("water_properties".toList, .sec "water_properties".toList [] [] [("rho".toList, .line "rho".toList [1] [])])])] : Kids Nat)
    "hydro".toList [("water_properties".toList, .sec "water_properties".toList [] [] [("rho".toList, .line "rho".toList [1] [])])] :=
  Or.inl ⟨_, rfl, Or.inl ⟨_, _, _, rfl⟩⟩

example : valuesAt (water "rho") (addHydro (fun _ => true) ([("hydro".toList, .sec "hydro".toList [] []
    [("water_properties".toList, .sec "water_properties".toList [] [] [("rho".toList, .line "rho".toList [1] [])])])] : Kids Nat) 50 0 9 1027).1 = some [1027] := by
  decide +kernel

end Verif.HtcHydro
