import Verif.Lemmas.FastDict
/-!
# C07–C10: the OpenFAST input object as a dictionary
-/
namespace Verif.FastDict
open Verif.Py

/-! ## Specification: a case-insensitive map -/

/-- keys are equal up to letter case -/
def SameKey (a b : Str) : Prop := lower a = lower b
instance (a b : Str) : Decidable (SameKey a b) := inferInstanceAs (Decidable (lower a = lower b))

/-- abstract dictionary: key ↦ value, or absent -/
abbrev Spec (V : Type) := Str → Option V

/-- effect of an operation on the abstract dictionary. -/
def specStep (m : Spec V) : Op V → Spec V
  | .set k v => fun q => if SameKey q k then (m q).map (fun _ => v) else m q
  | .addKeyVal k v _ => fun q => if SameKey q k then some v else m q
  | .addComment c => fun q => if q = [] then (match m q with | some w => some w | none => some c) else m q
  | .addTable l t _ => fun q => if SameKey q l then (match m q with | some w => some w | none => some t) else m q

/-- **C07** (refinement) — any sequence of operations behaves like the abstract
dictionary. -/
theorem C07_refines (none_ : V) (data : Data V) (ops : List (Op V)) (key : Str) :
    getitem (run none_ data ops) key = ops.foldl specStep (getitem data) key := by
  induction ops generalizing data with
  | nil => rfl
  | cons op ops ih =>
    rw [run, List.foldl_cons, ← run, ih, List.foldl_cons]
    suffices h : getitem (step none_ data op) = specStep (getitem data) op by rw [h]
    funext q
    cases op with
    | set k v =>
      simp only [step, specStep, getitem_eq_lookup, setitem_eq_map, lookup_map_set, SameKey]
    | addKeyVal k v d =>
      simp only [step, specStep, getitem_eq_lookup, lookup_addKeyVal, SameKey]
    | addComment c =>
      simp only [step, specStep, getitem_eq_lookup, addComment, lookup_append, getDict, lookup]
      by_cases hq : q = []
      · subst hq; cases lookup [] data <;> simp
      · have : lower [] ≠ lower q := by
          intro h; apply hq
          have := congrArg List.length h
          simpa [lower] using this.symm
        simp only [hq, if_false, this]
        cases lookup q data <;> simp
    | addTable l t n =>
      simp only [step, specStep, getitem_eq_lookup, addTable, lookup_append, getDict, lookup, SameKey]
      by_cases hq : lower q = lower l
      · cases lookup q data <;> simp [hq]
      · simp only [hq, if_false, Ne.symm hq]
        cases lookup q data <;> simp

/-- value assigned to `key` by an operation, if any -/
def assigns (key : Str) : Op V → Option V
  | .set k v => if SameKey key k then some v else none
  | .addKeyVal k v _ => if SameKey key k then some v else none
  | _ => none

/-- **C07** — for a key present at the start, the value read after any history
is the last value assigned to it (up to case), or the initial value. -/
theorem C07_last_write (none_ : V) (data : Data V) (ops : List (Op V)) (key : Str) (v0 : V)
    (h0 : getitem data key = some v0) :
    getitem (run none_ data ops) key = some ((ops.reverse.findSome? (assigns key)).getD v0) := by
  rw [C07_refines]
  generalize getitem data = m at h0
  induction ops generalizing m v0 with
  | nil => simpa using h0
  | cons op ops ih =>
    rw [List.foldl_cons]
    have hm : specStep m op key = some ((assigns key op).getD v0) := by
      cases op with
      | set k v => simp only [specStep, assigns, h0]; split <;> simp
      | addKeyVal k v d => simp only [specStep, assigns, h0]; split <;> simp
      | addComment c => simp [specStep, assigns, h0]
      | addTable l t n => simp [specStep, assigns, h0]
    rw [ih _ _ hm]
    rw [List.reverse_cons, List.findSome?_append]
    cases List.findSome? (assigns key) ops.reverse with
    | some w => simp
    | none =>
      simp only [Option.getD_none, Option.none_or, Option.some.injEq]
      cases h : assigns key op <;> simp [List.findSome?, h]

/-- **C07** (frame) — entries whose label is not assigned (other keys, comments,
tables) stay at the same position with the same content. -/
theorem C07_frame (none_ : V) (data : Data V) (ops : List (Op V)) (i : Nat) (d : Entry V)
    (hd : data[i]? = some d) (hno : ∀ op ∈ ops, assigns d.label op = none) :
    (run none_ data ops)[i]? = some d := by
  induction ops generalizing data with
  | nil => exact hd
  | cons op ops ih =>
    rw [run, List.foldl_cons, ← run]
    apply ih
    · have hop := hno op (by simp)
      have hlt : i < data.length := by
        rcases Nat.lt_or_ge i data.length with h | h
        · exact h
        · simp [List.getElem?_eq_none h] at hd
      cases op with
      | set k v =>
        have hk : ¬ lower d.label = lower k := by
          intro h; simp [assigns, SameKey, h] at hop
        simp [step, setitem_eq_map, hd, sameLabel, hk]
      | addKeyVal k v s =>
        have hk : ¬ lower d.label = lower k := by
          intro h; simp [assigns, SameKey, h] at hop
        simp only [step]
        rcases addKeyVal_cases none_ data k v s with ⟨_, e, he, _⟩ | ⟨pre, d', post, hdata, hd', _, he⟩
        · rw [he, List.getElem?_append_left hlt]; exact hd
        · rw [he]
          subst hdata
          rcases Nat.lt_trichotomy i pre.length with h | h | h
          · rw [List.getElem?_append_left h] at hd ⊢; exact hd
          · subst h; simp at hd; subst hd; exact absurd hd' hk
          · rw [List.getElem?_append_right (by omega)] at hd ⊢
            obtain ⟨n, hn⟩ : ∃ n, i - pre.length = n + 1 := ⟨i - pre.length - 1, by omega⟩
            simpa [hn] using hd
      | addComment c => simp only [step, addComment]; rw [List.getElem?_append_left hlt]; exact hd
      | addTable l t n => simp only [step, addTable]; rw [List.getElem?_append_left hlt]; exact hd
    · exact fun op' h => hno op' (List.mem_cons_of_mem _ h)

/-- **C07** (order) — assignments `f[key]=v` never change number, order, labels,
comment flags or descriptions of the entries. -/
theorem C07_set_order (data : Data V) (key : Str) (v : V) :
    (setitem data key v).map (fun d => (d.label, d.isComment, d.descr, d.tabType)) =
      data.map (fun d => (d.label, d.isComment, d.descr, d.tabType)) := by
  rw [setitem_eq_map, List.map_map]
  apply List.map_congr_left
  intro d _
  simp only [Function.comp]
  split <;> rfl

section Example
/-- a file with a repeated label, differing by case, and a comment -/
def exData : Data Int := [⟨"DT".toList, 1, false, "step".toList, 0⟩, ⟨[], 99, true, [], 0⟩,
  ⟨"TMax".toList, 5, false, [], 0⟩, ⟨"dt".toList, 2, false, [], 0⟩]
def exOps : List (Op Int) := [.set "Dt".toList 7, .addKeyVal "TMAX".toList 8 none,
  .addKeyVal "New".toList 3 (some "d".toList), .set "tmax".toList 9]
example : getitem exData "DT".toList = some 1 ∧ getitem exData "tMax".toList = some 5 := by decide
example : getitem (run 0 exData exOps) "dt".toList = some 7 ∧
    getitem (run 0 exData exOps) "TMax".toList = some 9 ∧
    getitem (run 0 exData exOps) "new".toList = some 3 := by decide
example : exData[1]? = some ⟨[], 99, true, [], 0⟩ ∧ ∀ op ∈ exOps, assigns [] op = none := by decide
end Example

/-! ## C08 -/

/-- **C08** (full statement): after `f[key]=v`, `f[key]` is `v` (the code never
raises in `__setitem__`). -/
def SetNeverLost (V : Type) : Prop :=
  ∀ (data : Data V) (key : Str) (v : V), getitem (setitem data key v) key = some v

/-- **C08** is violated, whatever the value type: `f['X']=v` on a file without
`X` is lost. -/
theorem C08_fails (V : Type) (v : V) : ¬ SetNeverLost V := by
  intro h
  have := h [] ['X'] v
  simp [setitem, getIDs, getitem, getIDSafe] at this

/-- the assignment of any absent key is silently ignored: the object is
unchanged and the key stays absent. -/
theorem C08_absent_ignored (data : Data V) (key : Str) (v : V) (h : getitem data key = none) :
    setitem data key v = data ∧ getitem (setitem data key v) key = none := by
  have hdata : setitem data key v = data := by
    rw [getitem_eq_lookup, lookup_none_iff] at h
    rw [setitem_eq_map]
    conv => rhs; rw [← List.map_id data]
    apply List.map_congr_left
    intro d hd
    simp [sameLabel, h d hd]
  exact ⟨hdata, by rw [hdata]; exact h⟩

/-- **C08** (partial) — the assignment is effective for keys that are present.
Missing: absent keys, where the statement is false. -/
theorem C08_present_partial (data : Data V) (key : Str) (v w : V)
    (h : getitem data key = some w) : getitem (setitem data key v) key = some v := by
  rw [getitem_eq_lookup] at h
  rw [getitem_eq_lookup, setitem_eq_map, lookup_map_set]
  simp [h]

example : getitem exData "Nope".toList = none := by decide

/-! ## C09 -/

/-- **C09** — `addKeyVal` makes the key readable with the new value, … -/
theorem C09_get (none_ : V) (data : Data V) (key : Str) (v : V) (descr : Option Str) :
    getitem (addKeyVal none_ data key v descr) key = some v := by
  rw [getitem_eq_lookup, lookup_addKeyVal]; simp

/-- … updates in place (same number of entries, same order, all other entries
identical) when the key exists, and appends exactly one entry at the end when
it does not. -/
theorem C09_shape (none_ : V) (data : Data V) (key : Str) (v : V) (descr : Option Str) :
    (getitem data key = none →
      ∃ e : Entry V, addKeyVal none_ data key v descr = data ++ [e] ∧ e.label = key ∧ e.value = v ∧
        e.isComment = false) ∧
    (∀ w, getitem data key = some w →
      ∃ (i : Nat) (d : Entry V), data[i]? = some d ∧ SameKey d.label key ∧
        (addKeyVal none_ data key v descr).length = data.length ∧
        (addKeyVal none_ data key v descr)[i]? =
          some { d with label := key, value := v, descr := descr.getD d.descr } ∧
        ∀ j, j ≠ i → (addKeyVal none_ data key v descr)[j]? = data[j]?) := by
  rcases addKeyVal_cases none_ data key v descr with
    ⟨hn, e, he, h1, h2, h3, _⟩ | ⟨pre, d, post, hdata, hd, hpre, he⟩
  · refine ⟨fun _ => ⟨e, he, h1, h2, h3⟩, ?_⟩
    intro w hw; rw [getitem_eq_lookup, hn] at hw; cases hw
  · constructor
    · intro hn
      exfalso
      rw [getitem_eq_lookup, lookup_none_iff] at hn
      exact hn d (by simp [hdata]) hd
    · intro w _
      refine ⟨pre.length, d, by simp [hdata], hd, by rw [he, hdata]; simp, by simp [he], ?_⟩
      intro j hj
      rw [he, hdata]
      rcases Nat.lt_trichotomy j pre.length with h | h | h
      · rw [List.getElem?_append_left h, List.getElem?_append_left h]
      · exact absurd h hj
      · rw [List.getElem?_append_right (by omega), List.getElem?_append_right (by omega)]
        obtain ⟨n, hn⟩ : ∃ n, j - pre.length = n + 1 := ⟨j - pre.length - 1, by omega⟩
        simp [hn]

/-- **C09** — `keys()`: the labels of the non-comment entries in file order; each
listed key can be read. -/
theorem C09_keys (data : Data V) :
    (∀ k, k ∈ keys data ↔ ∃ d ∈ data, d.isComment = false ∧ d.label = k) ∧
    (keys data).Sublist (data.map Entry.label) ∧
    (∀ k ∈ keys data, (getitem data k).isSome) := by
  refine ⟨?_, ?_, ?_⟩
  · intro k
    simp only [keys, List.mem_map, List.mem_filter, Bool.not_eq_true']
    constructor
    · rintro ⟨d, ⟨h1, h2⟩, h3⟩; exact ⟨d, h1, h2, h3⟩
    · rintro ⟨d, h1, h2, h3⟩; exact ⟨d, ⟨h1, h2⟩, h3⟩
  · exact List.filter_sublist.map _
  · intro k hk
    simp only [keys, List.mem_map, List.mem_filter] at hk
    obtain ⟨d, ⟨h1, _⟩, rfl⟩ := hk
    rw [getitem_eq_lookup]
    cases h : lookup d.label data with
    | some w => rfl
    | none => exact absurd rfl ((lookup_none_iff ..).mp h d h1)

/-- **C09** — the effect of `addKeyVal` of a new key and of `addComment` on `keys()`. -/
theorem C09_keys_grow (none_ : V) (data : Data V) (key : Str) (v c : V) (descr : Option Str)
    (h : getitem data key = none) :
    keys (addKeyVal none_ data key v descr) = keys data ++ [key] ∧
    keys (addComment none_ data c) = keys data := by
  obtain ⟨e, he, h1, _, h3⟩ := (C09_shape none_ data key v descr).1 h
  constructor
  · rw [he]; simp [keys, h1, h3]
  · simp [keys, addComment]

example : keys exData = ["DT".toList, "TMax".toList, "dt".toList] := by decide

/-! ## C10 -/

/-- **C10** (full statement) — the loop visits all entries once and stops. -/
def IterationOK (data : Data V) : Prop :=
  ∃ fuel, forLoop data fuel (iter data) = some (data, true)

theorem forLoop_from (data : Data V) (n i : Nat) (hi : i ≤ data.length) (hn : data.length - i < n) :
    forLoop data n ⟨(i : Int) - 1, (data.length : Int) - 1⟩ = some (data.drop i, false) := by
  induction n generalizing i with
  | zero => omega
  | succ n ih =>
    have hng : ¬ ((i : Int) - 1 > (data.length : Int) - 1) := by omega
    have hidx : ((i : Int) - 1 + 1) = (i : Int) := by omega
    rw [forLoop]
    simp only [next, hng, if_false, hidx]
    have hp : pyIndex data (i : Int) = data[i]? := by simp [pyIndex]
    rw [hp]
    rcases Nat.lt_or_ge i data.length with hlt | hge
    · have hg : data[i]? = some data[i] := List.getElem?_eq_getElem hlt
      rw [hg]
      simp only
      have := ih (i + 1) (by omega) (by omega)
      have hc : (((i + 1 : Nat) : Int) - 1) = (i : Int) := by omega
      rw [hc] at this
      rw [this]
      simp
    · have hg : data[i]? = none := List.getElem?_eq_none hge
      rw [hg]
      simp [List.drop_eq_nil_of_le hge]

/-- **C10** is violated for *every* file: the loop visits all entries but then
ends in `IndexError`, never normally. -/
theorem C10_fails (data : Data V) : ¬ IterationOK data := by
  rintro ⟨fuel, h⟩
  rcases Nat.lt_or_ge data.length fuel with hf | hf
  · have := forLoop_from data fuel 0 (by omega) (by omega)
    simp only [iter] at h
    rw [show ((0 : Nat) : Int) - 1 = -1 from rfl] at this
    rw [this] at h
    simp at h
  · -- not enough fuel: the loop has not ended
    have hnone : ∀ (n i : Nat), i + n ≤ data.length →
        forLoop data n ⟨(i : Int) - 1, (data.length : Int) - 1⟩ = none := by
      intro n
      induction n with
      | zero => intro i _; rfl
      | succ n ih =>
        intro i hi
        have hng : ¬ ((i : Int) - 1 > (data.length : Int) - 1) := by omega
        have hidx : ((i : Int) - 1 + 1) = (i : Int) := by omega
        rw [forLoop]
        simp only [next, hng, if_false, hidx]
        have hp : pyIndex data (i : Int) = data[i]? := by simp [pyIndex]
        rw [hp, List.getElem?_eq_getElem (show i < data.length by omega)]
        have := ih (i + 1) (by omega)
        have hc : (((i + 1 : Nat) : Int) - 1) = (i : Int) := by omega
        rw [hc] at this
        simp [this]
    have := hnone fuel 0 (by omega)
    simp only [iter] at h
    rw [show ((0 : Nat) : Int) - 1 = -1 from rfl] at this
    rw [this] at h
    cases h

/-- **C10** (partial) — before the exception every entry is visited exactly once,
in file order. Missing: normal termination, which is false (`C10_fails`). -/
theorem C10_visits_all_partial (data : Data V) :
    forLoop data (data.length + 1) (iter data) = some (data, false) := by
  have := forLoop_from data (data.length + 1) 0 (by omega) (by omega)
  simpa [iter] using this

example : forLoop exData 5 (iter exData) = some (exData, false) := by decide

end Verif.FastDict
