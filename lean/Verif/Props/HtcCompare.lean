import Verif.Lemmas.HtcCompare
/-!
# Comparison of HAWC2 files

Properties C232 to C234.
-/
namespace Verif.HtcCompare
open Verif.Py

/-- **C232**: comparing something with itself gives nothing: a file, a section, a line, with or
without output sections -/
theorem C232_self [DecidableEq V] (a : Item V) (h : Keyed a) : cmp a a = some [] := by
  have kids : ∀ l : List (Str × Item V), (l.map Prod.fst).Nodup → (∀ x ∈ l, cmp x.2 x.2 = some []) → cmpKids l l = some [] := by
    intro l hn hx
    rw [cmpKids_empty l l hn]
    intro k
    cases hk : l.lookup k with
    | none => trivial
    | some b => exact hx _ (lookup_mem' l k b hk)
  induction h with
  | line v t => simp [cmp]
  | sec l t hn _ ih => rw [cmp]; exact kids l hn ih
  | out l ss t hn _ ih =>
    rw [cmp, kids l hn ih]
    have := cmpSensors_prefix ss []
    rw [List.append_nil] at this
    simp [this]

/-- **C232**: without output sections, the comparison gives nothing exactly if both have the same
sections and lines, with the same values, at the same paths of names -/
theorem C232_same [DecidableEq V] (a b : Item V) (ha : Plain a) (hb : Plain b) :
    cmp a b = some [] ↔ ∀ p, at? a p = at? b p := by
  induction ha generalizing b with
  | line v t =>
    cases hb with
    | line v' t' =>
      rw [cmp]
      constructor
      · intro h p
        have : v = v' := by
          by_cases e : v = v'
          · exact e
          · simp [e] at h
        subst this
        cases p <;> rfl
      · intro h
        have := h []
        simp only [at?, Option.some.injEq] at this
        simp [this]
    | sec kids t' =>
      rw [cmp]
      · exact ⟨fun h => (by cases h), fun h => by have := h []; cases this⟩
      · intro v t e; cases e
  | sec kids t hn _ ih =>
    cases hb with
    | line v' t' =>
      rw [cmp]
      exact ⟨fun h => (by cases h), fun h => by have := h []; cases this⟩
    | sec kids' t' hn' hk' =>
      rw [cmp, cmpKids_empty kids kids' hn]
      constructor
      · intro h p
        cases p with
        | nil => rfl
        | cons k p =>
          have := h k
          rw [at?, at?]
          cases hl : kids.lookup k with
          | none =>
            rw [hl] at this
            cases hl' : kids'.lookup k with
            | none => rfl
            | some b => rw [hl'] at this; exact this.elim
          | some a =>
            rw [hl] at this
            cases hl' : kids'.lookup k with
            | none => rw [hl'] at this; exact this.elim
            | some b =>
              rw [hl'] at this
              exact (ih _ (lookup_mem' _ _ _ hl) b (hk' _ (lookup_mem' _ _ _ hl'))).1 this p
      · intro h k
        have hroot : ∀ c : Item V, at? c [] ≠ none := by intro c; cases c <;> simp [at?]
        have hp : ∀ p, (match kids.lookup k with | some b => at? b p | none => none) =
            (match kids'.lookup k with | some b => at? b p | none => none) := fun p => by
          have := h (k :: p)
          rw [at?, at?] at this
          exact this
        cases hl : kids.lookup k with
        | none =>
          rw [hl] at hp
          cases hl' : kids'.lookup k with
          | none => trivial
          | some b => rw [hl'] at hp; exact absurd (hp []).symm (hroot b)
        | some a =>
          rw [hl] at hp
          cases hl' : kids'.lookup k with
          | none => rw [hl'] at hp; exact absurd (hp []) (hroot a)
          | some b =>
            rw [hl'] at hp
            exact (ih _ (lookup_mem' _ _ _ hl) b (hk' _ (lookup_mem' _ _ _ hl'))).2 hp

/-- a file: a section with a line, and a line -/
def exA : Item Nat :=
  .sec [("wind".toList, .sec [("wsp".toList, .line [8] [])] []), ("title".toList, .line [1] [])] []

/-- the same in another order -/
def exB : Item Nat :=
  .sec [("title".toList, .line [1] []), ("wind".toList, .sec [("wsp".toList, .line [8] [])] [])] []

/-- another wind speed -/
def exC : Item Nat :=
  .sec [("wind".toList, .sec [("wsp".toList, .line [9] ["wsp 9;".toList])] [])] []

example : Plain exA ∧ Plain exB ∧ Keyed exA := by
  refine ⟨?_, ?_, ?_⟩
  · refine .sec _ _ (by decide) ?_
    simp only [List.forall_mem_cons, List.not_mem_nil, false_implies, implies_true, and_true]
    exact ⟨.sec _ _ (by decide) (by
      simp only [List.forall_mem_cons, List.not_mem_nil, false_implies, implies_true, and_true]
      exact .line _ _), .line _ _⟩
  · refine .sec _ _ (by decide) ?_
    simp only [List.forall_mem_cons, List.not_mem_nil, false_implies, implies_true, and_true]
    exact ⟨.line _ _, .sec _ _ (by decide) (by
      simp only [List.forall_mem_cons, List.not_mem_nil, false_implies, implies_true, and_true]
      exact .line _ _)⟩
  · refine .sec _ _ (by decide) ?_
    simp only [List.forall_mem_cons, List.not_mem_nil, false_implies, implies_true, and_true]
    exact ⟨.sec _ _ (by decide) (by
      simp only [List.forall_mem_cons, List.not_mem_nil, false_implies, implies_true, and_true]
      exact .line _ _), .line _ _⟩

example : cmp exA exB = some [] := by decide +kernel

example : cmp exA exC = some [('+', []), ('-', ["wsp 9;".toList]), ('-', [])] := by decide +kernel

example : at? exA ["wind".toList, "wsp".toList] = some (some [8]) ∧ at? exC ["wind".toList, "wsp".toList] = some (some [9]) := by
  decide +kernel

/-- **C233** fails: sensors that only the other file has are not reported, whatever they are, nor
is a sensor of another type -/
theorem C233_fails [DecidableEq V] (kids : List (Str × Item V)) (ss more : List (Sensor V)) (t t' : List Str)
    (h : Keyed (.out kids ss t)) (s : Sensor V) (ty : Str) :
    cmp (.out kids ss t) (.out kids (ss ++ more) t') = some [] ∧
    cmp (.out kids [s] t) (.out kids [{ s with type := ty }] t') = some [] := by
  have hk : cmpKids kids kids = some [] := by
    cases h with
    | out _ _ _ hn hx =>
      have := C232_self (.sec kids []) (.sec kids [] hn hx)
      rwa [cmp] at this
  constructor
  · rw [cmp, hk, cmpSensors_prefix]; rfl
  · rw [cmp, hk]
    have : cmpSensors [s] [{ s with type := ty }] = [] := by simp [cmpSensors, cmpSensor]
    rw [this]; rfl

/-- **C233**: if nothing is reported, the other file has at least as many sensors, and those at the
same place have the same name and values.  (Missing for the full property: the number and the
types of the sensors.) -/
theorem C233_partial [DecidableEq V] (kids kids' : List (Str × Item V)) (ss ss' : List (Sensor V)) (t t' : List Str)
    (h : cmp (.out kids ss t) (.out kids' ss' t') = some []) :
    cmpKids kids kids' = some [] ∧ ss.length ≤ ss'.length ∧
    ∀ (i : Nat) s s', ss[i]? = some s → ss'[i]? = some s' → s.sensor = s'.sensor ∧ s.values = s'.values := by
  rw [cmp] at h
  cases hk : cmpKids kids kids' with
  | none => rw [hk] at h; cases h
  | some r =>
    rw [hk] at h
    simp only [Option.map_some, Option.some.injEq, List.append_eq_nil_iff] at h
    rw [h.1]
    exact ⟨rfl, cmpSensors_nil ss ss' h.2⟩

example : cmp (.out [] [⟨"mbdy".toList, "forcevec".toList, [1], []⟩] [])
    (.out [] [⟨"aero".toList, "forcevec".toList, [1], []⟩, ⟨"wind".toList, "free_wind".toList, [2], []⟩] [] : Item Nat) = some [] ∧
    cmp (.out [] [⟨"mbdy".toList, "forcevec".toList, [1], []⟩] [] : Item Nat)
      (.out [] [⟨"mbdy".toList, "forcevec".toList, [2], []⟩] []) = some [('+', []), ('-', [])] := by decide +kernel

/-- **C234** fails: of a line with different values, the text of this file has a plus and that of
the other file a minus; of lines that only one file has it is the other way round -/
theorem C234_fails [DecidableEq V] (k : Str) (v v' : List V) (t t' : List Str) (hv : v ≠ v') :
    cmp (.sec [(k, .line v t)] []) (.sec [(k, .line v' t')] []) = some [('+', t), ('-', t')] ∧
    cmp (.sec [(k, .line v t)] []) (.sec [] [] : Item V) = some [('-', t)] ∧
    cmp (.sec [] [] : Item V) (.sec [(k, .line v' t')] []) = some [('+', t')] := by
  simp [cmp, cmpKids, List.lookup, hv, Item.text]

/-- **C234**: what only this file has is reported with a minus, what only the other file has with a
plus, in every section.  (Missing for the full property: the marks of lines with different
values.) -/
theorem C234_partial [DecidableEq V] (kids kids' : List (Str × Item V)) (t t' : List Str) (es : List Entry)
    (h : cmp (.sec kids t) (.sec kids' t') = some es) (k : Str) (a : Item V) :
    ((k, a) ∈ kids → (∀ o ∈ kids', o.1 ≠ k) → ('-', a.text) ∈ es) ∧
    ((k, a) ∈ kids' → (∀ o ∈ kids, o.1 ≠ k) → ('+', a.text) ∈ es) := by
  rw [cmp] at h
  exact cmpKids_single kids kids' es h k a

example : [1] ≠ [2] ∧ cmp exC exA = some [('+', ["wsp 9;".toList]), ('-', []), ('+', [])] := by decide +kernel

end Verif.HtcCompare
