import Verif.Lemmas.HtcName
import Verif.Lemmas.HtcEdit
/-!
# Names of the simulation files in HAWC2 files

Property C257.
-/
namespace Verif.HtcName
open Verif.Py Verif.HtcEdit

/-- **C257** fails: if the simulation has no log file, the animation and the visualization keep their names; only the results are renamed -/
theorem C257_fails {V : Type} (d sim out : Kids V) (p : Paths V) (hs : HasSec d "simulation".toList sim) (hl : "logfile".toList ∉ sim.map Prod.fst)
    (ht : "test_structure".toList ∉ d.map Prod.fst) (ho : HasSec d "output".toList out) (hf : LineOrNone out "filename".toList) :
    ∃ d', setName d p = (d', none) ∧ valuesAt aniPath d' = valuesAt aniPath d ∧ valuesAt visPath d' = valuesAt visPath d ∧
      valuesAt resPath d' = some [p.res] := by
  obtain ⟨d', h1, h2⟩ := res_sets d out p.res ho hf
  refine ⟨d', ?_, h2.other _ (by decide +kernel), h2.other _ (by decide +kernel), h2.here⟩
  have e1 : hasLog d "simulation".toList = false := by
    rw [hasLog_sec d sim _ hs, (look_none_iff _ sim).2 hl]; rfl
  have e2 : hasLog d "test_structure".toList = false := by
    rw [hasLog, (look_none_iff _ d).2 ht]; rfl
  rw [setName, e1, e2]
  simp only [andThen]
  exact h1

/-- **C257**: with a log file, an animation, a visualization and an output section, `set_name` sets the four names, keeps the other values of the
visualization, and changes no other value.  (Missing for the full property: simulations without a log file.) -/
theorem C257_partial {V : Type} (d sim out : Kids V) (p : Paths V) (l a vs : List V) (v : V) (hs : HasSec d "simulation".toList sim)
    (hd : (sim.map Prod.fst).Nodup) (hl : valuesAt ["logfile".toList] sim = some l) (ha : valuesAt ["animation".toList] sim = some a)
    (hv : valuesAt ["visualization".toList] sim = some (v :: vs)) (ho : HasSec d "output".toList out) (hf : LineOrNone out "filename".toList) :
    ∃ d', setName d p = (d', none) ∧ valuesAt logPath d' = some [p.log] ∧ valuesAt aniPath d' = some [p.ani] ∧
      valuesAt visPath d' = some (p.vis :: vs) ∧ valuesAt resPath d' = some [p.res] ∧
      ∀ q, q ≠ logPath → q ≠ aniPath → q ≠ visPath → q ≠ resPath → valuesAt q d' = valuesAt q d := by
  have hlog := lineOrNone_values sim _ l hd hl
  obtain ⟨-, s1⟩ := assign_sets sim "logfile".toList [p.log] (by decide +kernel) hlog
  have k1 : ((assign "logfile".toList [p.log] sim).1.map Prod.fst) = sim.map Prod.fst :=
    setAttr_keys_nodup sim _ _ (by decide +kernel) hlog hd (by
      have := look_of_values sim _ l hl
      by_cases hm : "logfile".toList ∈ sim.map Prod.fst
      · exact hm
      · rw [(look_none_iff _ sim).2 hm] at this; cases this)
  generalize hsim1 : (assign "logfile".toList [p.log] sim).1 = sim1 at s1 k1
  have ha1 : valuesAt ["animation".toList] sim1 = some a := by rw [s1.other _ (by decide +kernel), ha]
  have hani := lineOrNone_values sim1 _ a (by rw [k1]; exact hd) ha1
  obtain ⟨-, s2⟩ := assign_sets sim1 "animation".toList [p.ani] (by decide +kernel) hani
  have hsim2 : ifIn "animation".toList (assign "animation".toList [p.ani]) sim1 = ((assign "animation".toList [p.ani] sim1).1, none) := by
    rw [ifIn, if_pos (look_of_values sim1 _ a ha1)]; rfl
  generalize (assign "animation".toList [p.ani] sim1).1 = sim2 at s2 hsim2
  have hv2 : valuesAt ["visualization".toList] sim2 = some (v :: vs) := by
    rw [s2.other _ (by decide +kernel), s1.other _ (by decide +kernel), hv]
  obtain ⟨e3, s3⟩ := setFirst_sets sim2 p.vis v vs hv2
  have hset : setSim p sim = ((setFirst p.vis sim2).1, none) := by
    have h0 : assign "logfile".toList [p.log] sim = (sim1, none) := Prod.ext hsim1 rfl
    rw [setSim, h0]
    simp only [andThen]
    rw [hsim2]
    simp only
    rw [ifIn, if_pos (look_of_values sim2 _ _ hv2)]
    exact Prod.ext rfl e3
  generalize (setFirst p.vis sim2).1 = sim3 at s3 hset
  obtain ⟨w1, w2, w3⟩ := within_all d sim "simulation".toList (setSim p) hs
  rw [hset] at w1 w2
  generalize hd1 : within d "simulation".toList (setSim p) = r at w1 w2 w3
  have ho1 : HasSec r.1 "output".toList out := hasSec_look _ _ _ _ (w3 _ (by decide +kernel)) ho
  obtain ⟨d', h1, h2⟩ := res_sets r.1 out p.res ho1 hf
  have hsimv : ∀ q, valuesAt ("simulation".toList :: q) d' = valuesAt q sim3 := by
    intro q
    rw [h2.other _ (fun e => by
      have := congrArg List.head? e
      revert this
      simp only [resPath, List.head?_cons]
      decide +kernel), valuesAt_sec _ q r.1 sim3 w2]
  refine ⟨d', ?_, ?_, ?_, ?_, h2.here, ?_⟩
  · have e1 : hasLog d "simulation".toList = true := by
      rw [hasLog_sec d sim _ hs]
      exact look_of_values sim _ l hl
    rw [setName, e1, if_pos rfl, hd1, andThen, w1]
    exact h1
  · rw [logPath, hsimv, s3.other _ (by decide +kernel), s2.other _ (by decide +kernel)]
    exact s1.here
  · rw [aniPath, hsimv, s3.other _ (by decide +kernel)]
    exact s2.here
  · rw [visPath, hsimv]
    exact s3.here
  · intro q q1 q2 q3 q4
    cases q with
    | nil => rfl
    | cons k q =>
      by_cases hk : k = "simulation".toList
      · subst hk
        rw [hsimv, s3.other q (cons_ne _ q3), s2.other q (cons_ne _ q2), s1.other q (cons_ne _ q1), valuesAt_sec _ q d sim hs]
      · rw [h2.other _ q4]
        exact valuesAt_look k q _ _ (w3 k hk)

/-- **C257**: for a test of the structure without a log file of the simulation, its log file and the results are named, and nothing else -/
theorem C257_test {V : Type} (d test out : Kids V) (p : Paths V) (hs : ∀ sim, HasSec d "simulation".toList sim → "logfile".toList ∉ sim.map Prod.fst)
    (ht : HasSec d "test_structure".toList test)
    (hk : "logfile".toList ∈ test.map Prod.fst) (hl : LineOrNone test "logfile".toList) (ho : HasSec d "output".toList out)
    (hf : LineOrNone out "filename".toList) :
    ∃ d', setName d p = (d', none) ∧ valuesAt ["test_structure".toList, "logfile".toList] d' = some [p.log] ∧ valuesAt resPath d' = some [p.res] ∧
      ∀ q, q ≠ ["test_structure".toList, "logfile".toList] → q ≠ resPath → valuesAt q d' = valuesAt q d := by
  obtain ⟨w1, w2, -, w3⟩ := within_sets d test "test_structure".toList (assign "logfile".toList [p.log]) _ _ ht (assign_sets test _ _ (by decide +kernel) hl)
  have e2 : hasLog d "test_structure".toList = true := by
    rw [hasLog_sec d test _ ht]
    cases h : look "logfile".toList test with
    | none => exact absurd hk ((look_none_iff _ test).1 h)
    | some x => rfl
  have e1 : hasLog d "simulation".toList = false := by
    rw [hasLog]
    cases h : look "simulation".toList d with
    | none => rfl
    | some x =>
      have hx : (d.find? fun q => q.1 = "simulation".toList).map Prod.snd = some x := by rw [← look_find]; exact h
      cases x with
      | line n v c => rfl
      | sec n bc ec kids =>
        show (look "logfile".toList kids).isSome = false
        rw [(look_none_iff _ kids).2 (hs kids ⟨_, hx, Or.inl ⟨n, bc, ec, rfl⟩⟩)]
        rfl
      | out n bc ec kids ss =>
        show (look "logfile".toList kids).isSome = false
        rw [(look_none_iff _ kids).2 (hs kids ⟨_, hx, Or.inr ⟨n, bc, ec, ss, rfl⟩⟩)]
        rfl
  have ho1 := hasSec_look _ _ _ _ (w3 "output".toList (by decide +kernel)) ho
  obtain ⟨d', h1, h2⟩ := res_sets _ out p.res ho1 hf
  refine ⟨d', ?_, ?_, h2.here, ?_⟩
  · rw [setName, e1, e2, if_neg (by decide), if_pos rfl, andThen, w1]
    exact h1
  · rw [h2.other _ (by decide +kernel), w2.here]
  · intro q q1 q2
    rw [h2.other q q2, w2.other q q1]

example : let d : Kids Nat := [("test_structure".toList, .sec "test_structure".toList [] [] [("logfile".toList, .line "logfile".toList [1] [])]),
      ("output".toList, .out "output".toList [] [] [("filename".toList, .line "filename".toList [4] [])] [])]
    "simulation".toList ∉ d.map Prod.fst ∧ valuesAt ["test_structure".toList, "logfile".toList] (setName d ⟨11, 12, 13, 14⟩).1 = some [11] := by decide +kernel

/-! A concrete case -/

/-- a file with the four names -/
def exN : Kids Nat :=
  [("simulation".toList, .sec "simulation".toList [] [] [("logfile".toList, .line "logfile".toList [1] []), ("animation".toList, .line "animation".toList [2] []),
      ("visualization".toList, .line "visualization".toList [3, 50] [])]),
   ("output".toList, .out "output".toList [] [] [("filename".toList, .line "filename".toList [4] [])] [])]

example : (setName exN ⟨11, 12, 13, 14⟩).2 = none ∧ valuesAt visPath (setName exN ⟨11, 12, 13, 14⟩).1 = some [13, 50] ∧
    valuesAt resPath (setName exN ⟨11, 12, 13, 14⟩).1 = some [14] := by decide +kernel

example : ∃ sim out, HasSec exN "simulation".toList sim ∧ (sim.map Prod.fst).Nodup ∧ valuesAt ["logfile".toList] sim = some [1] ∧
    valuesAt ["animation".toList] sim = some [2] ∧ valuesAt ["visualization".toList] sim = some [3, 50] ∧ HasSec exN "output".toList out ∧
    LineOrNone out "filename".toList :=
  ⟨_, _, ⟨_, rfl, Or.inl ⟨_, _, _, rfl⟩⟩, by decide +kernel, rfl, rfl, rfl, ⟨_, rfl, Or.inr ⟨_, _, _, _, rfl⟩⟩, by
    intro q hq _
    rcases List.mem_singleton.1 hq with rfl
    exact ⟨_, _, _, rfl⟩⟩

end Verif.HtcName
