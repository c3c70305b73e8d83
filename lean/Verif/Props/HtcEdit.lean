import Verif.Lemmas.HtcEdit
import Verif.Py.Dec
import Verif.Lemmas.HtcTree
/-!
# Changing HAWC2 files

Properties C241 to C247.
-/
namespace Verif.HtcEdit
open Verif.Py

/-- **C241** fails: a line can be read with `__1` behind its name but not set so: its values stay, and a second line is added -/
theorem C241_fails {V : Type} (d : Kids V) (k : Str) (v : List V) (x : Item V) (hx : getAttr d (k ++ "__1".toList) = some x)
    (hk : k ++ "__1".toList ∉ d.map Prod.fst) (ha : k ++ "__1".toList ∉ attrs) (hn : ¬ ['_', '_'] <:+: k) (hu : k.getLast? ≠ some '_') :
    getAttr (setAttr d (k ++ "__1".toList) v) (k ++ "__1".toList) = some x ∧
      setAttr d (k ++ "__1".toList) v = d ++ [(k ++ "__1".toList, .line k v [])] := by
  have hr : readKey (k ++ "__1".toList) = k := by
    have e : (k ++ "__1".toList).length - 3 = k.length := by rw [List.length_append]; rfl
    rw [readKey, e, List.drop_left, if_pos rfl, List.take_left]
  have hs : setAttr d (k ++ "__1".toList) v = d ++ [(k ++ "__1".toList, .line k v [])] := by
    rw [setAttr, if_neg ha]
    simp only [(look_none_iff _ _).2 hk]
    rw [put_new _ _ _ hk, cut2_one k hn hu]
  rw [getAttr, hr] at hx
  refine ⟨?_, hs⟩
  rw [getAttr, hr, hs, look_append, hx]
  rfl

/-- **C241** fails, too, for the name of a section: it stays a section, with a line `values` -/
theorem C241_section_fails {V : Type} (d kids : Kids V) (k n bc ec : Str) (v : List V) (ha : k ∉ attrs)
    (hk : (d.find? fun q => q.1 = k).map Prod.snd = some (.sec n bc ec kids)) (hno : "values".toList ∉ kids.map Prod.fst) :
    valuesAt [k] (setAttr d k v) = none ∧ valuesAt [k, "values".toList] (setAttr d k v) = some v := by
  rw [← look_find] at hk
  have e : setAttr d k v = put k (.sec n bc ec (setLine kids "values".toList v)) d := by
    rw [setAttr, if_neg ha]
    simp only [hk]
  rw [e]
  have hl : look k (put k (.sec n bc ec (setLine kids "values".toList v)) d) = some (.sec n bc ec (setLine kids "values".toList v)) := by
    rw [look_put, if_pos rfl]
  constructor
  · rw [valuesAt_cons, hl]; rfl
  · rw [valuesAt_cons, hl]
    simp only
    have hn := (look_none_iff _ _).2 hno
    rw [setLine]
    simp only [hn]
    rw [valuesAt_cons, look_put, if_pos rfl]
    rfl

/-- **C241**: for the name of a line, or a new name, `section.k = v` sets the values: `section.k` is a line with them, with the name and
comment it had; all other lines and sections are kept, and the order.  (Missing for the full property: names with `__1` behind, and names of sections.) -/
theorem C241_partial {V : Type} (d : Kids V) (k : Str) (v : List V) (ha : k ∉ attrs) (h1 : ¬ "__1".toList <:+ k) (hl : LineOrNone d k) :
    ∃ n c, getAttr (setAttr d k v) k = some (.line n v c) ∧ (∀ n' v' c', getAttr d k = some (.line n' v' c') → n = n' ∧ c = c') ∧
      (∀ k', k' ≠ k → ((setAttr d k v).find? fun q => q.1 = k').map Prod.snd = (d.find? fun q => q.1 = k').map Prod.snd) ∧
      (setAttr d k v).map Prod.fst = if k ∈ d.map Prod.fst then d.map Prod.fst else d.map Prod.fst ++ [k] := by
  obtain ⟨n, c, e1, e2, e3, e4⟩ := setAttr_look d k v ha hl
  have hr : readKey k = k := by
    rw [readKey, if_neg]
    intro e
    exact h1 (e ▸ List.drop_suffix _ _)
  refine ⟨n, c, by rw [getAttr, hr]; exact e1, ?_, ?_, e4⟩
  · intro n' v' c' h
    rw [getAttr, hr] at h
    exact e2 n' v' c' h
  · intro k' hk
    rw [← look_find, ← look_find]
    exact e3 k' hk

/-- **C242** fails: `section[k] = v` does not set a line that is there; a second line of the name is added behind the others -/
theorem C242_fails {V : Type} (d : Kids V) (k : Str) (v : List V) (hk : k ∈ d.map Prod.fst) (hn : ¬ ['_', '_'] <:+: k) :
    valuesAt [k] (setItem d k v) = valuesAt [k] d ∧ ∃ j : Nat, 2 ≤ j ∧ setItem d k v = d ++ [(k ++ "__".toList ++ FastLine.showInt j, .line k v [])] := by
  have hc := Htc.cut2_id k hn
  constructor
  · apply valuesAt_look
    rw [setItem, look_append]
    cases h : look k d with
    | none => exact absurd hk ((look_none_iff k d).1 h)
    | some x => rfl
  · rw [setItem, hc]
    rcases Htc.newKey_form (d.map Prod.fst) k with h | ⟨j, hj, h⟩
    · exact absurd hk (h ▸ Htc.newKey_not_mem (d.map Prod.fst) k)
    · exact ⟨j, hj, by rw [h]⟩

/-- **C242**: for a new name the line is added with its values, and nothing else is changed.  (Missing for the full property: names of lines that are there.) -/
theorem C242_partial {V : Type} (d : Kids V) (k : Str) (v : List V) (hk : k ∉ d.map Prod.fst) (hn : ¬ ['_', '_'] <:+: k) :
    valuesAt [k] (setItem d k v) = some v ∧ setItem d k v = d ++ [(k, .line k v [])] := by
  have hc := Htc.cut2_id k hn
  have hnew : Htc.newKey (d.map Prod.fst) k = k := by rw [Htc.newKey, if_pos hk]
  have e : setItem d k v = d ++ [(k, .line k v [])] := by rw [setItem, hc, hnew]
  refine ⟨?_, e⟩
  rw [e, valuesAt_cons, look_append, (look_none_iff k d).2 hk, look]
  simp

/-- **C243** fails: the copy of an output section is a section without the sensors -/
theorem C243_fails {V : Type} (n bc ec : Str) (kids : Kids V) (ss : List (List V)) :
    ∃ n' bc' ec' kids', copy (.out n bc ec kids ss) = .sec n' bc' ec' kids' := ⟨_, _, _, _, by rw [copy]⟩

/-- **C243**: the copy of lines and sections, at any depth, is the same as the original.  (Missing for the full property: output sections.) -/
theorem C243_partial {V : Type} (x : Item V) (h : Plain x) : copy x = x := copy_plain x h

/-- **C244**: `get_section` gives the section with the value in its field if there is exactly one, and ValueError otherwise -/
theorem C244 {V : Type} [DecidableEq V] (d : Kids V) (v : V) (field : Str)
    (h : ∀ q ∈ d, ∀ kids, kidsOf q.2 = some kids → ∀ x, (kids.find? fun p => p.1 = field).map Prod.snd = some x → ∃ n w ws c, x = .line n (w :: ws) c) :
    (∀ k x, (d.filter fun q => fits field v q.2) = [(k, x)] → getSection d v field = .ok x) ∧
    ((d.filter fun q => fits field v q.2).length ≠ 1 → getSection d v field = .error .value) := by
  have hf := filterE_ok (hasField field v) (fits field v) (items d) (fun x hx => by
    obtain ⟨k, hk⟩ := items_mem d x hx
    exact hasField_fits field v x (h (k, x) hk))
  rw [getSection, hf]
  exact single_filter d (fits field v)

/-- **C245** fails: `get_element` never finds a section by one of its lines -/
theorem C245_fails {V : Type} (d : Kids V) (key : Str) : ∃ e, getElement d key = .error e := by
  rw [getElement]
  cases h : filterE (hasElement key) (items d) with
  | error e => exact ⟨e, rfl⟩
  | ok l =>
    have := filterE_false (hasElement key) (by
      intro x hx
      rw [hasElement] at hx
      split at hx
      · cases hx
      · split at hx <;> cases hx) _ l h
    rw [this]
    exact ⟨.value, rfl⟩

/-- **C245**: among lines, the one with the value at the position is found if there is exactly one, otherwise there is a ValueError.
(Missing for the full property: sections found by one of their lines.) -/
theorem C245_partial {V : Type} [DecidableEq V] (d : Kids V) (i : Nat) (v : V) (h : ∀ q ∈ d, ∃ n vals c, q.2 = .line n vals c ∧ i < vals.length) :
    (∀ k x, (d.filter fun q => isAt i v q.2) = [(k, x)] → getElementAt d i v = .ok x) ∧
    ((d.filter fun q => isAt i v q.2).length ≠ 1 → getElementAt d i v = .error .value) := by
  have hf := filterE_ok (hasValue i v) (isAt i v) (items d) (fun x hx => by
    obtain ⟨k, hk⟩ := items_mem d x hx
    obtain ⟨n, vals, c, e, hi⟩ := h (k, x) hk
    simp only at e
    subst e
    simp [hasValue, isAt, hi])
  rw [getElementAt, hf]
  exact single_filter d (isAt i v)

/-- **C247** fails: to delete a line that is not there is no error -/
theorem C247_fails {V : Type} (d : Kids V) (k : Str) (h : k ∉ d.map Prod.fst) : delAttr d k = d := by
  rw [delAttr, (look_none_iff k d).2 h]
  rfl

/-- **C247**: a line or section that is there is deleted, and all others are kept, in their order.  (Missing for the full property: the
KeyError for a line that is not there.) -/
theorem C247_partial {V : Type} (d a b : Kids V) (k : Str) (x : Item V) (h : d = a ++ (k, x) :: b) (hn : (d.map Prod.fst).Nodup) :
    delAttr d k = a ++ b := by
  subst h
  rw [List.map_append, List.map_cons, List.nodup_append] at hn
  obtain ⟨-, h2, h3⟩ := hn
  have hs : (look k (a ++ (k, x) :: b)).isSome = true := by
    cases hl : look k (a ++ (k, x) :: b) with
    | none => exact absurd (by simp) ((look_none_iff _ _).1 hl)
    | some y => rfl
  rw [delAttr, if_pos hs, drop, List.filter_append, List.filter_cons_of_neg (by simp)]
  congr 1
  · rw [List.filter_eq_self]
    intro q hq
    exact decide_eq_true (fun e => h3 q.1 (List.mem_map.2 ⟨q, hq, rfl⟩) k List.mem_cons_self e)
  · rw [List.filter_eq_self]
    intro q hq
    exact decide_eq_true (fun (e : q.1 = k) => (List.nodup_cons.1 h2).1 (e ▸ List.mem_map.2 ⟨q, hq, rfl⟩))

/-- **C246**: `set_time(start, stop, step)` sets the four times, and no other values -/
theorem C246 {V : Type} (d sim nm out wind : Kids V) (start stop step : V)
    (hs : HasSec d "simulation".toList sim) (hn : HasSec sim "newmark".toList nm) (ho : HasSec d "output".toList out) (hw : HasSec d "wind".toList wind)
    (l1 : LineOrNone sim "time_stop".toList) (l2 : LineOrNone nm "deltat".toList) (l3 : LineOrNone out "time".toList)
    (l4 : LineOrNone wind "scale_time_start".toList) :
    ∃ d', setTime d (some start) (some stop) (some step) = (d', none) ∧
      valuesAt ["simulation".toList, "time_stop".toList] d' = some [stop] ∧
      valuesAt ["simulation".toList, "newmark".toList, "deltat".toList] d' = some [step] ∧
      valuesAt ["output".toList, "time".toList] d' = some [start, stop] ∧
      valuesAt ["wind".toList, "scale_time_start".toList] d' = some [start] ∧
      ∀ p, p ≠ ["simulation".toList, "time_stop".toList] → p ≠ ["simulation".toList, "newmark".toList, "deltat".toList] →
        p ≠ ["output".toList, "time".toList] → p ≠ ["wind".toList, "scale_time_start".toList] → valuesAt p d' = valuesAt p d := by
  obtain ⟨e1, s1, c1, o1⟩ := within_sets d sim "simulation".toList (assign "time_stop".toList [stop]) _ _ hs
    (assign_sets sim _ _ (by decide +kernel) l1)
  generalize hd1 : within d "simulation".toList (assign "time_stop".toList [stop]) = r1 at e1 s1 c1 o1
  obtain ⟨n, c, -, -, k1, -⟩ := setAttr_look sim "time_stop".toList [stop] (by decide +kernel) l1
  have hn1 : HasSec (assign "time_stop".toList [stop] sim).1 "newmark".toList nm := hasSec_look _ _ _ _ (k1 _ (by decide +kernel)) hn
  obtain ⟨e2a, s2a, -, -⟩ := within_sets (assign "time_stop".toList [stop] sim).1 nm "newmark".toList (assign "deltat".toList [step]) _ _ hn1
    (assign_sets nm _ _ (by decide +kernel) l2)
  obtain ⟨e2, s2, -, o2⟩ := within_sets r1.1 _ "simulation".toList (fun k => within k "newmark".toList (assign "deltat".toList [step])) _ _ c1 ⟨e2a, s2a⟩
  generalize hd2 : within r1.1 "simulation".toList (fun k => within k "newmark".toList (assign "deltat".toList [step])) = r2 at e2 s2 o2
  have ho2 : HasSec r2.1 "output".toList out :=
    hasSec_look _ _ _ _ ((o2 _ (by decide +kernel)).trans (o1 _ (by decide +kernel))) ho
  obtain ⟨e3, s3, -, o3⟩ := within_sets r2.1 out "output".toList (assign "time".toList [start, stop]) _ _ ho2
    (assign_sets out _ _ (by decide +kernel) l3)
  generalize hd3 : within r2.1 "output".toList (assign "time".toList [start, stop]) = r3 at e3 s3 o3
  have hw3 : HasSec r3.1 "wind".toList wind :=
    hasSec_look _ _ _ _ ((o3 _ (by decide +kernel)).trans ((o2 _ (by decide +kernel)).trans (o1 _ (by decide +kernel)))) hw
  obtain ⟨e4, s4, -, -⟩ := within_sets r3.1 wind "wind".toList (assign "scale_time_start".toList [start]) _ _ hw3
    (assign_sets wind _ _ (by decide +kernel) l4)
  have hsome : (look "wind".toList r3.1).isSome = true := by
    obtain ⟨x, h1, -⟩ := hw3
    rw [look_find, h1]
    rfl
  refine ⟨(within r3.1 "wind".toList (assign "scale_time_start".toList [start])).1, ?_, ?_, ?_, ?_, s4.here, ?_⟩
  · rw [setTime, hd1, andThen]
    simp only [e1]
    rw [setRest, hd2, andThen]
    simp only [e2]
    rw [hd3, andThen]
    simp only [e3, hsome, if_true]
    exact Prod.ext rfl e4
  · rw [s4.other _ (by decide +kernel), s3.other _ (by decide +kernel), s2.other _ (by decide +kernel)]
    exact s1.here
  · rw [s4.other _ (by decide +kernel), s3.other _ (by decide +kernel)]
    exact s2.here
  · rw [s4.other _ (by decide +kernel)]
    exact s3.here
  · intro p h1 h2 h3 h4
    rw [s4.other p h4, s3.other p h3, s2.other p h2, s1.other p h1]

/-- **C246**: without a stop time the one of the file is used, and the simulation is kept -/
theorem C246_start {V : Type} (d sim out : Kids V) (start stop : V) (more : List V)
    (hs : HasSec d "simulation".toList sim) (ht : valuesAt ["time_stop".toList] sim = some (stop :: more)) (ho : HasSec d "output".toList out)
    (hw : "wind".toList ∉ d.map Prod.fst) (l3 : LineOrNone out "time".toList) :
    ∃ d', setTime d (some start) none none = (d', none) ∧ valuesAt ["output".toList, "time".toList] d' = some [start, stop] ∧
      ∀ p, p ≠ ["output".toList, "time".toList] → valuesAt p d' = valuesAt p d := by
  have hstop : timeStop d = .ok stop := by
    obtain ⟨x, h1, h2⟩ := hs
    rw [← look_find] at h1
    rw [timeStop, h1]
    have hk : kidsOf x = some sim := by
      rcases h2 with ⟨n, bc, ec, rfl⟩ | ⟨n, bc, ec, ss, rfl⟩ <;> rfl
    simp only [hk]
    rw [valuesAt_cons] at ht
    cases hl : look "time_stop".toList sim with
    | none => rw [hl] at ht; cases ht
    | some y =>
      rw [hl] at ht
      cases y with
      | line n v c =>
        have ht' : some v = some (stop :: more) := ht
        rw [Option.some.inj ht']
      | sec n bc ec kids => cases ht
      | out n bc ec kids ss => cases ht
  obtain ⟨e3, s3, -, o3⟩ := within_sets d out "output".toList (assign "time".toList [start, stop]) _ _ ho
    (assign_sets out _ _ (by decide +kernel) l3)
  refine ⟨(within d "output".toList (assign "time".toList [start, stop])).1, ?_, s3.here, s3.other⟩
  have hnone : (look "wind".toList (within d "output".toList (assign "time".toList [start, stop])).1).isSome = false := by
    rw [o3 _ (by decide +kernel), (look_none_iff _ _).2 hw]
    rfl
  rw [setTime]
  simp only [hstop]
  rw [setRest]
  simp only [andThen, e3, hnone]
  rfl

/-- a small file -/
def exFile : Kids Nat :=
  [("simulation".toList, .sec "simulation".toList [] [] [("time_stop".toList, .line "time_stop".toList [600] "[s]".toList),
      ("newmark".toList, .sec "newmark".toList [] [] [("deltat".toList, .line "deltat".toList [2] [])])]),
   ("wind".toList, .sec "wind".toList [] [] [("wsp".toList, .line "wsp".toList [10] [])]),
   ("output".toList, .out "output".toList [] [] [("time".toList, .line "time".toList [100, 600] [])] [[7, 8]])]

example : (setTime exFile (some 5) (some 50) (some 1)).2 = none ∧
    valuesAt ["output".toList, "time".toList] (setTime exFile (some 5) (some 50) (some 1)).1 = some [5, 50] ∧
    valuesAt ["wind".toList, "scale_time_start".toList] (setTime exFile (some 5) (some 50) (some 1)).1 = some [5] ∧
    valuesAt ["wind".toList, "wsp".toList] (setTime exFile (some 5) (some 50) (some 1)).1 = some [10] := by decide +kernel

-- the lines of a `c2_def` section

example : valuesAt ["sec".toList] (setAttr [("sec".toList, .line "sec".toList [1, 2] [])] "sec__1".toList [3, 4] : Kids Nat) = some [1, 2] ∧
    valuesAt ["sec__1".toList] (setAttr [("sec".toList, .line "sec".toList [1, 2] [])] "sec__1".toList [3, 4] : Kids Nat) = some [3, 4] ∧
    valuesAt ["sec".toList] (setAttr [("sec".toList, .line "sec".toList [1, 2] [])] "sec".toList [3, 4] : Kids Nat) = some [3, 4] := by decide +kernel

example : valuesAt ["wsp".toList] (setItem [("wsp".toList, .line "wsp".toList [1] [])] "wsp".toList [3] : Kids Nat) = some [1] := by decide +kernel

example : Plain (.sec "wind".toList [] [] [("wsp".toList, .line "wsp".toList [10] [])] : Item Nat) :=
  ⟨by decide, by decide, by decide, ⟨by decide, by decide⟩, trivial⟩

/-- two bodies -/
def exBodies : Kids Nat :=
  [("main_body".toList, .sec "main_body".toList [] [] [("name".toList, .line "name".toList [1] [])]),
   ("base".toList, .sec "base".toList [] [] []),
   ("main_body__2".toList, .sec "main_body".toList [] [] [("name".toList, .line "name".toList [2] [])])]

example : ([("sec".toList, .line "sec".toList [1, 5] []), ("sec__2".toList, .line "sec".toList [2, 6] [])] : Kids Nat).filter (fun q => isAt 0 2 q.2) =
    [("sec__2".toList, .line "sec".toList [2, 6] [])] := by rfl

example : ((exBodies.filter fun q => fits "name".toList 2 q.2).map Prod.fst) = ["main_body__2".toList] ∧
    (exBodies.filter fun q => fits "name".toList 3 q.2).length = 0 ∧
    (match getSection exBodies 2 "name".toList with | .ok x => (kidsOf x).bind (valuesAt ["name".toList]) | .error _ => none) = some [2] := by
  decide +kernel

end Verif.HtcEdit
