import Verif.Lemmas.HtcAdd
import Verif.Lemmas.HtcEdit
/-!
# Adding sections to HAWC2 files

Properties C258 to C260.
-/
namespace Verif.HtcAdd
open Verif.Py Verif.HtcEdit

/-- **C258** fails: of an output section that is given, nothing is added but its name: its lines and sensors are lost -/
theorem C258_fails {V : Type} (isNum : Str → Bool) (d : Kids V) (bc ec : Str) (kids : Kids V) (ss : List (List V)) (dup : Bool)
    (h : "output".toList ∉ d.map Prod.fst) :
    addSection isNum d "output".toList [] (some (.out "output".toList bc ec kids ss)) dup =
      .ok (d ++ [("output".toList, .out "output".toList [] [] [] [])], .out "output".toList [] [] [] []) := by
  rw [addSection_new isNum d _ [] _ dup (.out "output".toList [] [] [] []) (by unfold newSection; rw [if_pos rfl]) (Or.inl h)]
  rw [show nameOf (V := V) (.out "output".toList [] [] [] []) = "output".toList from rfl, Htc.newKey, if_pos h]
  rfl

/-- **C258**: a section that is given, or a new one, is added behind the others, with lines for its members; it has its name as key if that is
free, and otherwise a key that nothing else has.  (Missing for the full property: output sections that are given.) -/
theorem C258_partial {V : Type} (isNum : Str → Bool) (d : Kids V) (name : Str) (members : List (Str × List V)) (dup : Bool)
    (h1 : name ≠ "output".toList) (h2 : ¬ "output_at_time".toList <+: name) (h3 : name ∉ d.map Prod.fst ∨ dup = true) :
    (∀ bc ec kids, Fresh kids members → ∃ k, k ∉ d.map Prod.fst ∧ (name ∉ d.map Prod.fst → k = name) ∧
      addSection isNum d name members (some (.sec name bc ec kids)) dup =
        .ok (d ++ [(k, .sec name bc ec (withLines kids members))], .sec name bc ec (withLines kids members))) ∧
    (strip name = name → Fresh [] members → ∃ k, k ∉ d.map Prod.fst ∧ (name ∉ d.map Prod.fst → k = name) ∧
      addSection isNum d name members none dup =
        .ok (d ++ [(k, .sec name [] [] (withLines [] members))], .sec name [] [] (withLines [] members))) := by
  constructor
  · intro bc ec kids hf
    refine ⟨Htc.newKey (d.map Prod.fst) name, Htc.newKey_not_mem _ _, fun h => by rw [Htc.newKey, if_pos h], ?_⟩
    rw [addSection_new isNum d name members _ dup _ (newSection_plain isNum name _ h1 h2) h3]
    simp only [Option.getD_some, setMembers, members_lines kids members hf, nameOf]
  · intro hst hf
    refine ⟨Htc.newKey (d.map Prod.fst) name, Htc.newKey_not_mem _ _, fun h => by rw [Htc.newKey, if_pos h], ?_⟩
    rw [addSection_new isNum d name members _ dup _ (newSection_plain isNum name _ h1 h2) h3]
    simp only [Option.getD_none, setMembers, members_lines [] members hf, nameOf, hst]

/-- **C259**: without `allow_duplicate`, adding a section that is there gives this one and changes nothing, whatever the members are; adding
an output without a section gives an empty one with lines for the members; an output at one time needs its keyword and its time, a number -/
theorem C259 {V : Type} (isNum : Str → Bool) (d : Kids V) (members : List (Str × List V)) :
    (∀ name x given, (d.find? fun q => q.1 = name).map Prod.snd = some x → addSection isNum d name members given false = .ok (d, x)) ∧
    ("output".toList ∉ d.map Prod.fst → Fresh [] members → ∀ dup, addSection isNum d "output".toList members none dup =
      .ok (d ++ [("output".toList, .out "output".toList [] [] (withLines [] members) [])], .out "output".toList [] [] (withLines [] members) [])) ∧
    (∀ name given dup, "output_at_time".toList <+: name → (name ∉ d.map Prod.fst ∨ dup = true) →
      ((words name).length ≠ 3 ∨ ∃ n k t, words name = [n, k, t] ∧ isNum t = false) →
      addSection isNum d name members given dup = .error .value) := by
  refine ⟨?_, ?_, ?_⟩
  · intro name x given h
    have hl : (if false = true then none else look name d) = some x := by rw [if_neg (by decide), look_find, h]
    unfold addSection
    rw [hl]
  · intro h hf dup
    rw [addSection_new isNum d _ members _ dup (.out "output".toList [] [] [] []) (by unfold newSection; rw [if_pos rfl]) (Or.inl h)]
    rw [show nameOf (V := V) (.out "output".toList [] [] [] []) = "output".toList from rfl, Htc.newKey, if_pos h]
    simp only [setMembers, members_lines [] members hf]
  · intro name given dup hp hn hw
    have hl : (if dup then none else look name d) = none := by
      rcases hn with h | rfl
      · rw [(look_none_iff name d).2 h, ite_self]
      · rfl
    have ho : name ≠ "output".toList := by
      rintro rfl
      exact absurd (List.IsPrefix.length_le hp) (by decide)
    have hs : newSection isNum name given = .error .value := by
      unfold newSection
      rw [if_neg ho, if_pos (by rw [startsWith, List.isPrefixOf_iff_prefix]; exact hp)]
      rcases hw with hw | ⟨n, k, t, hw, ht⟩
      · generalize words name = w at hw
        match w, hw with
        | [], _ => rfl
        | [_], _ => rfl
        | [_, _], _ => rfl
        | [_, _, _], hw => exact absurd rfl hw
        | _ :: _ :: _ :: _ :: _, _ => rfl
      · rw [hw]
        simp only [ht]
        rfl
    unfold addSection
    rw [hl, hs]

/-- **C260**: adding a section and deleting it again gives the file as it was -/
theorem C260 {V : Type} (isNum : Str → Bool) (d d' : Kids V) (name : Str) (members : List (Str × List V)) (given : Option (Item V)) (dup : Bool) (x : Item V)
    (h : addSection isNum d name members given dup = .ok (d', x)) (hn : name ∉ d.map Prod.fst ∨ dup = true) :
    ∃ k, k ∉ d.map Prod.fst ∧ look k d' = some x ∧ delete d' k = d := by
  cases hs : newSection isNum name given with
  | error e =>
    have hl : (if dup then none else look name d) = none := by
      rcases hn with h | rfl
      · rw [(look_none_iff name d).2 h, ite_self]
      · rfl
    unfold addSection at h
    rw [hl, hs] at h
    cases h
  | ok s =>
    rw [addSection_new isNum d name members given dup s hs hn] at h
    simp only [Except.ok.injEq, Prod.mk.injEq] at h
    obtain ⟨rfl, rfl⟩ := h
    have hk := Htc.newKey_not_mem (d.map Prod.fst) (nameOf s)
    refine ⟨_, hk, ?_, ?_⟩
    · rw [look_append, (look_none_iff _ d).2 hk]
      simp [look]
    · rw [delete, drop, List.filter_append, List.filter_cons_of_neg (by simp)]
      rw [List.filter_nil, List.append_nil, List.filter_eq_self]
      intro q hq
      exact decide_eq_true (fun e => hk (e ▸ List.mem_map.2 ⟨q, hq, rfl⟩))

/-! Concrete cases -/

example : Fresh ([("wsp".toList, .line "wsp".toList [10] [])] : Kids Nat) [("density".toList, [1]), ("tint".toList, [2])] :=
  ⟨by decide, by decide, by decide⟩

example : ((match addSection (fun _ => true) ([("wind".toList, .sec "wind".toList [] [] [])] : Kids Nat) "wind".toList [("wsp".toList, [8])] none true with
    | .ok (d, _) => (d.map Prod.fst, valuesAt ["wind__2".toList, "wsp".toList] d)
    | .error _ => ([], none))) = (["wind".toList, "wind__2".toList], some [8]) := by decide +kernel

example : "output_at_time".toList <+: "output_at_time aero".toList ∧ (words "output_at_time aero".toList).length ≠ 3 := by decide

example : ∃ d x, addSection (fun _ => true) ([("wind".toList, .sec "wind".toList [] [] [])] : Kids Nat) "aero".toList [("nblades".toList, [3])] none false =
    .ok (d, x) ∧ d.map Prod.fst = ["wind".toList, "aero".toList] := ⟨_, _, rfl, by decide +kernel⟩

end Verif.HtcAdd
