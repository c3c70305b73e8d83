import Verif.Lemmas.HtcQuery
import Verif.Lemmas.HtcEdit
import Verif.Lemmas.Str
/-!
# Finding contents of HAWC2 files

Properties C248 to C250.
-/
namespace Verif.HtcQuery
open Verif.Py Verif.HtcEdit

/-- **C248** fails: `get` with a path that goes through a line is a TypeError, whatever the default is -/
theorem C248_fails {V A : Type} (d : Kids V) (k r t : Str) (ks : List Str) (n : Str) (vals : List V) (c : Str) (dflt : A) (f : Item V → A)
    (ht : PathText (k :: r :: ks) t) (h : (d.find? fun q => q.1 = k).map Prod.snd = some (.line n vals c)) :
    get d t dflt f = .error .type := by
  rw [get, getItem_follow d _ t ht, follow, look_find, h]
  rfl

/-- **C248**: a text of names with dots or slashes between them gives the contents at the end of that path; if a name is missing in its
section, `[…]` is a KeyError and `get` gives the default.  (Missing for the full property: paths through lines.) -/
theorem C248_partial {V A : Type} (d : Kids V) (ks : List Str) (t : Str) (dflt : A) (f : Item V → A) (ht : PathText ks t) :
    (∀ x, At d ks x → getItem d t = .ok x ∧ get d t dflt f = .ok (f x)) ∧
    (Ends d ks → getItem d t = .error .key ∧ get d t dflt f = .ok dflt) := by
  constructor
  · intro x h
    have : getItem d t = .ok x := by rw [getItem_follow d ks t ht, follow_at h]
    exact ⟨this, by rw [get, this]⟩
  · intro h
    have : getItem d t = .error .key := by rw [getItem_follow d ks t ht, follow_ends h]
    exact ⟨this, by rw [get, this]⟩

/-- **C249** fails: sections cannot be told apart by a field whose name begins with `v`, if there is one without that value -/
theorem C249_fails {V : Type} [DecidableEq V] (int : Str → Option Nat) (d : Kids V) (key name field : Str) (v : V) (x : Item V) (kids : Kids V)
    (hx : (key, x) ∈ d) (hn : nameOf x = name) (hk : kidsOf x = some kids) (hv : field.head? = some 'v')
    (hw : (valuesAt [field] kids).bind List.head? ≠ some v) : ∃ e, call int d name [(field, v)] = .error (.raised e) := by
  have hp : ∃ e, picks int name [(field, v)] x = .error e := by
    rw [picks, if_neg (fun h => h hn), allE]
    cases hf : hasField field v x with
    | error e => exact ⟨e, rfl⟩
    | ok b =>
      cases b with
      | true =>
        exfalso
        rw [hasField, hk] at hf
        simp only at hf
        rw [valuesAt_cons] at hw
        cases hl : look field kids with
        | none => rw [hl] at hf; cases hf
        | some y =>
          rw [hl] at hf hw
          cases y with
          | sec _ _ _ _ => cases hf
          | out _ _ _ _ _ => cases hf
          | line n vals c =>
            cases vals with
            | nil => cases hf
            | cons w ws =>
              simp only [Except.ok.injEq, decide_eq_true_eq] at hf
              exact hw (by simp [hf])
      | false =>
        simp only [allE, List.all_cons, List.all_nil, hv, decide_true, Bool.and_true, if_true, byPosition]
        cases int (field.drop 1) with
        | none => exact ⟨.value, rfl⟩
        | some i =>
          cases x with
          | line _ _ _ => cases hk
          | sec _ _ _ _ => exact ⟨.key, rfl⟩
          | out _ _ _ _ _ => exact ⟨.key, rfl⟩
  obtain ⟨e, hp⟩ := hp
  obtain ⟨e', he⟩ := filterE_error _ (items d) x (mem_items d key x hx) e hp
  exact ⟨e', by rw [call, he]⟩

/-- **C249**: `contents(field=value, …)` gives the section of this name with these values in its fields if there is exactly one, and is an
AssertionError otherwise.  (Missing for the full property: fields that all begin with `v`.) -/
theorem C249_partial {V : Type} [DecidableEq V] (int : Str → Option Nat) (d : Kids V) (name : Str) (kw : List (Str × V))
    (hv : ∃ q ∈ kw, q.1.head? ≠ some 'v')
    (h : ∀ p ∈ d, nameOf p.2 = name → ∀ q ∈ kw, ∀ kids, kidsOf p.2 = some kids → ∀ x, (kids.find? fun r => r.1 = q.1).map Prod.snd = some x →
      ∃ n w ws c, x = .line n (w :: ws) c) :
    (∀ k x, (d.filter fun p => nameOf p.2 = name ∧ ∀ q ∈ kw, fits q.1 q.2 p.2 = true) = [(k, x)] → call int d name kw = .ok x) ∧
    ((d.filter fun p => nameOf p.2 = name ∧ ∀ q ∈ kw, fits q.1 q.2 p.2 = true).length ≠ 1 → call int d name kw = .error .assertion) := by
  refine call_filter int d name kw (fun x => decide (nameOf x = name ∧ ∀ q ∈ kw, fits q.1 q.2 x = true)) ?_
  intro x hx
  obtain ⟨k, hk⟩ := items_mem d x hx
  rw [picks]
  by_cases hn : nameOf x = name
  · rw [if_neg (fun h => h hn), allE_ok _ (fun q => fits q.1 q.2 x) kw (fun q hq => hasField_fits q.1 q.2 x (h (k, x) hk hn q hq))]
    have ha : (kw.all fun q => decide (q.1.head? = some 'v')) = false := by
      obtain ⟨q, hq, hh⟩ := hv
      rw [List.all_eq_false]
      exact ⟨q, hq, by simpa using hh⟩
    have he : (kw.all fun q => fits q.1 q.2 x) = decide (nameOf x = name ∧ ∀ q ∈ kw, fits q.1 q.2 x = true) := by
      rw [Bool.eq_iff_iff, List.all_eq_true, decide_eq_true_eq]
      exact ⟨fun h => ⟨hn, h⟩, fun h => h.2⟩
    rw [← he]
    cases kw.all fun q => fits q.1 q.2 x with
    | true => rfl
    | false => simp only [ha]; rfl
  · rw [if_pos hn, decide_eq_false (fun h => hn h.1)]

/-- **C250**: `contents(v0=value, …)` gives the line of this name with these values at these positions if there is exactly one, and is an
AssertionError otherwise -/
theorem C250 {V : Type} [DecidableEq V] (int : Str → Option Nat) (d : Kids V) (name : Str) (kw : List (Nat × V)) (num : Nat → Str)
    (hint : ∀ i, int (num i) = some i) (hne : kw ≠ [])
    (h : ∀ p ∈ d, nameOf p.2 = name → ∃ n vals c, p.2 = .line n vals c ∧ ∀ q ∈ kw, q.1 < vals.length) :
    (∀ k x, (d.filter fun p => nameOf p.2 = name ∧ ∀ q ∈ kw, isAt q.1 q.2 p.2 = true) = [(k, x)] →
      call int d name (kw.map fun q => ('v' :: num q.1, q.2)) = .ok x) ∧
    ((d.filter fun p => nameOf p.2 = name ∧ ∀ q ∈ kw, isAt q.1 q.2 p.2 = true).length ≠ 1 →
      call int d name (kw.map fun q => ('v' :: num q.1, q.2)) = .error .assertion) := by
  refine call_filter int d name _ (fun x => decide (nameOf x = name ∧ ∀ q ∈ kw, isAt q.1 q.2 x = true)) ?_
  intro x hx
  obtain ⟨k, hk⟩ := items_mem d x hx
  rw [picks]
  by_cases hn : nameOf x = name
  · obtain ⟨n, vals, c, e, hlen⟩ := h (k, x) hk hn
    simp only at e
    subst e
    rw [if_neg (fun h => h hn), allE_ok (fun q : Str × V => hasField q.1 q.2 (Item.line n vals c)) (fun _ => false) _ (fun q hq => rfl)]
    have hf : ((kw.map fun q => ('v' :: num q.1, q.2)).all fun _ => false) = false := by
      cases kw with
      | nil => exact absurd rfl hne
      | cons q kw => rfl
    have ha : ((kw.map fun q => ('v' :: num q.1, q.2)).all fun q => decide (q.1.head? = some 'v')) = true := by
      rw [List.all_eq_true]
      intro q hq
      obtain ⟨r, -, rfl⟩ := List.mem_map.1 hq
      rfl
    have hp : ∀ l : List (Nat × V), (∀ q ∈ l, q.1 < vals.length) →
        allE (byPosition int (.line n vals c)) (l.map fun q => ('v' :: num q.1, q.2)) = .ok (l.all fun q => isAt q.1 q.2 (.line n vals c)) := by
      intro l hl
      induction l with
      | nil => rfl
      | cons q l ih =>
        have hq : byPosition int (.line n vals c) ('v' :: num q.1, q.2) = .ok (isAt q.1 q.2 (.line n vals c)) := by
          rw [byPosition]
          simp only [List.drop_succ_cons, List.drop_zero, hint, hasValue, isAt]
          rw [List.getElem?_eq_getElem (hl q (by simp))]
          simp
        rw [List.map_cons, allE, hq, ih (fun q hq => hl q (by simp [hq]))]
        rfl
    rw [hf]
    simp only [ha, if_true]
    rw [hp kw hlen]
    congr 1
    rw [Bool.eq_iff_iff, List.all_eq_true, decide_eq_true_eq]
    exact ⟨fun h => ⟨hn, h⟩, fun h => h.2⟩
  · rw [if_pos hn, decide_eq_false (fun h => hn h.1)]

/-! Concrete cases -/

/-- two bodies and two sections of a beam -/
def exQ : Kids Nat :=
  [("main_body".toList, .sec "main_body".toList [] [] [("name".toList, .line "name".toList [1] []), ("vec".toList, .line "vec".toList [7] [])]),
   ("main_body__2".toList, .sec "main_body".toList [] [] [("name".toList, .line "name".toList [2] []), ("vec".toList, .line "vec".toList [8] [])]),
   ("sec".toList, .line "sec".toList [1, 5] []), ("sec__2".toList, .line "sec".toList [2, 6] [])]

example : PathText ["main_body__2".toList, "name".toList] "main_body__2.name".toList :=
  .dot "main_body__2".toList ["name".toList] "name".toList (by decide) (by decide) (.one "name".toList (by decide) (by decide))

example : At exQ ["main_body__2".toList, "name".toList] (.line "name".toList [2] []) :=
  .sec exQ _ _ _ _ ⟨_, rfl, Or.inl ⟨_, _, _, rfl⟩⟩ (.here _ _ _ rfl)

example : Ends exQ ["main_body__2".toList, "nbodies".toList] :=
  .sec exQ _ _ _ ⟨_, rfl, Or.inl ⟨_, _, _, rfl⟩⟩ (.here _ _ _ (by decide))

example : (exQ.find? fun q => q.1 = "sec".toList).map Prod.snd = some (.line "sec".toList [1, 5] []) := by rfl

/-- a number of one digit -/
def exInt (s : Str) : Option Nat := match s with
  | [c] => if '0' ≤ c ∧ c ≤ '9' then some (c.toNat - 48) else none
  | _ => none

example : ((match call exInt exQ "main_body".toList [("name".toList, 2)] with | .ok x => (kidsOf x).bind (valuesAt ["name".toList]) | .error _ => none) = some [2]) ∧
    ((exQ.filter fun p => nameOf p.2 = "main_body".toList ∧ ∀ q ∈ [("name".toList, 2)], fits q.1 q.2 p.2 = true).map Prod.fst) = ["main_body__2".toList] ∧
    (match call exInt exQ "main_body".toList [("vec".toList, 8)] with | .ok _ => none | .error e => some e) = some (.raised .value) := by decide +kernel

/-- a text of so many digits, and its length -/
example : ∃ (int : Str → Option Nat) (num : Nat → Str), (∀ i, int (num i) = some i) ∧
    (match call int exQ "sec".toList [('v' :: num 0, 2)] with | .ok (.line _ v _) => some v | _ => none) = some [2, 6] :=
  ⟨fun s => some s.length, fun n => List.replicate n '1', fun i => by simp, by decide +kernel⟩

end Verif.HtcQuery
