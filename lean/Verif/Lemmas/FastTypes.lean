import Verif.Model.FastTypes
import Verif.Lemmas.FastDict
import Verif.Lemmas.FastLine
import Mathlib.Data.List.Nodup
namespace Verif.FastTypes
open Verif.Py Verif.FastDict

/-! ### the suffixes `_1`, `_2`, … -/

theorem toDigits_inj (m n : Nat) (h : Nat.toDigits 10 m = Nat.toDigits 10 n) : m = n := by
  have h1 : Nat.ofDigitChars 10 (Nat.toDigits 10 m) 0 = m := Nat.ofDigitChars_toDigits (by decide) (by decide)
  have h2 : Nat.ofDigitChars 10 (Nat.toDigits 10 n) 0 = n := Nat.ofDigitChars_toDigits (by decide) (by decide)
  rw [← h1, h, h2]

theorem offset_inj (i j : Nat) (h : offset i = offset j) : i = j := by
  have := toDigits_inj (i + 1) (j + 1) (by simpa [offset] using h)
  omega

theorem toLower_digit (c : Char) (h : c.isDigit = true) : c.toLower = c := by
  simp only [Char.isDigit, Bool.and_eq_true, decide_eq_true_eq] at h
  have hc : ¬ (c.isUpper = true) := by
    simp only [Char.isUpper, decide_eq_true_eq, not_and]
    intro h1
    exfalso
    have a := h.2
    simp only [UInt32.le_iff_toNat_le, ge_iff_le] at *
    have : (57 : UInt32).toNat = 57 := rfl
    have : (65 : UInt32).toNat = 65 := rfl
    have e1 : ('9' : Char).val.toNat = 57 := rfl
    have e2 : ('A' : Char).val.toNat = 65 := rfl
    omega
  rw [Char.toLower]
  split
  · rename_i h'
    exact absurd (by simpa [Char.isUpper] using h') hc
  · rfl

theorem lower_digits (l : Str) (h : ∀ c ∈ l, c.isDigit = true) : lower l = l := by
  rw [lower]
  conv => rhs; rw [← List.map_id l]
  exact List.map_congr_left fun c hc => toLower_digit c (h c hc)

theorem lower_append (a b : Str) : lower (a ++ b) = lower a ++ lower b := by simp [lower]

theorem lower_offset (i : Nat) : lower (offset i) = offset i := by
  have := lower_digits (Nat.toDigits 10 (i + 1)) (FastLine.toDigits_digit _)
  simp only [lower] at this
  simp only [offset, lower, List.map_cons, this]
  rfl

/-- what follows the last `_` -/
def tailOf (s : Str) : Str := (s.reverse.takeWhile (· ≠ '_')).reverse
/-- what precedes the last `_` -/
def headOf (s : Str) : Str := (s.reverse.dropWhile (· ≠ '_')).reverse

theorem digits_no_underscore (n : Nat) : ∀ c ∈ (Nat.toDigits 10 n).reverse, c ≠ '_' := by
  intro c hc e
  have := FastLine.toDigits_digit n c (by simpa using hc)
  rw [e] at this
  exact absurd this (by decide)

theorem tailOf_offset (a : Str) (i : Nat) : tailOf (a ++ offset i) = Nat.toDigits 10 (i + 1) := by
  have h : (a ++ offset i).reverse = (Nat.toDigits 10 (i + 1)).reverse ++ '_' :: a.reverse := by
    simp [offset]
  rw [tailOf, h, List.takeWhile_append_of_pos (by
    intro c hc; simpa using digits_no_underscore _ c hc)]
  simp

theorem headOf_offset (a : Str) (i : Nat) : headOf (a ++ offset i) = a ++ ['_'] := by
  have h : (a ++ offset i).reverse = (Nat.toDigits 10 (i + 1)).reverse ++ '_' :: a.reverse := by
    simp [offset]
  rw [headOf, h, List.dropWhile_append_of_pos (by
    intro c hc; simpa using digits_no_underscore _ c hc)]
  simp

theorem suffixed_inj (a b : Str) (i j : Nat) (h : a ++ offset i = b ++ offset j) : a = b ∧ i = j := by
  have h1 := congrArg headOf h
  have h2 := congrArg tailOf h
  rw [headOf_offset, headOf_offset] at h1
  rw [tailOf_offset, tailOf_offset] at h2
  have := toDigits_inj _ _ h2
  exact ⟨by simpa using h1, by omega⟩

theorem polarLabs_nodup : (polarLabs.map lower).Nodup := by decide +kernel

theorem polarLabs_inj (a b : Str) (ha : a ∈ polarLabs) (hb : b ∈ polarLabs) (h : lower a = lower b) : a = b :=
  List.inj_on_of_nodup_map polarLabs_nodup ha hb h

theorem polarLabs_tail : ∀ a ∈ polarLabs, ¬ ((tailOf (lower a)).all Char.isDigit = true) ∨ '_' ∉ lower a := by
  decide +kernel

/-- no label of a table ends with a suffix -/
theorem raw_ne_suffixed (a b : Str) (i : Nat) (ha : a ∈ polarLabs) : lower a ≠ lower (b ++ offset i) := by
  intro h
  rw [lower_append, lower_offset] at h
  rcases polarLabs_tail a ha with h1 | h1
  · apply h1
    rw [h, tailOf_offset]
    exact List.all_eq_true.2 (FastLine.toDigits_digit _)
  · apply h1
    rw [h]
    simp [offset]

/-- two different (label, table) pairs give different suffixed labels -/
theorem suffixed_ne (a b : Str) (i j : Nat) (ha : a ∈ polarLabs) (hb : b ∈ polarLabs)
    (h : lower (a ++ offset i) = lower (b ++ offset j)) : a = b ∧ i = j := by
  rw [lower_append, lower_append, lower_offset, lower_offset] at h
  have := suffixed_inj _ _ _ _ h
  exact ⟨polarLabs_inj a b ha hb this.1, this.2⟩

/-! ### counts -/

theorem setitem_get (data : Data V) (k : Str) (v : V) (j : Nat) :
    (setitem data k v)[j]? = data[j]?.map (fun d => if lower d.label = lower k then { d with value := v } else d) := by
  rw [setitem_eq_map, List.getElem?_map]
  congr 1
  funext d
  by_cases h : lower d.label = lower k
  · simp [sameLabel, h]
  · have : sameLabel k d = false := by simp [sameLabel, h]
    simp [this, h]

theorem setitem_get_same (data : Data V) (k : Str) (v : V) (j : Nat) (e : Entry V) (he : data[j]? = some e)
    (h : lower e.label = lower k) : (setitem data k v)[j]? = some { e with value := v } := by
  rw [setitem_get, he, Option.map_some, if_pos h]

theorem setitem_get_ne (data : Data V) (k : Str) (v : V) (j : Nat) (e : Entry V) (he : data[j]? = some e)
    (h : lower e.label ≠ lower k) : (setitem data k v)[j]? = some e := by
  rw [setitem_get, he, Option.map_some, if_neg h]

theorem getitem_setitem_ne (data : Data V) (k q : Str) (v : V) (h : lower q ≠ lower k) :
    getitem (setitem data k v) q = getitem data q := by
  rw [getitem_eq_lookup, getitem_eq_lookup, setitem_eq_map, lookup_map_set, if_neg h]

theorem syncCount_ok (E : Env V) (data d : Data V) (k t : Str) (h : syncCount E data k t = (d, none)) :
    ∃ v n, getitem data t = some v ∧ E.rows v = some n ∧ d = setitem data k (E.nat n) := by
  rw [syncCount] at h
  split at h
  · simp at h
  · rename_i v hv
    split at h
    · simp at h
    · rename_i n hn
      exact ⟨v, n, hv, hn, by simpa using h.symm⟩

theorem lower_lit_ne (a b : Str) (x : Char) (r : Str) (y : Char) (s : Str)
    (ha : a = x :: r) (hb : b = y :: s) (h : x.toLower ≠ y.toLower) : lower a ≠ lower b := by
  subst ha; subst hb
  intro e
  simp [lower] at e
  exact h e.1

theorem numAlf_ne_afCoeff (i j : Nat) :
    lower ("AFCoeff".toList ++ offset i) ≠ lower ("NumAlf".toList ++ offset j) :=
  lower_lit_ne _ _ 'A' _ 'N' _ rfl rfl (by decide)

theorem numAlf_mem : "NumAlf".toList ∈ polarLabs := by decide +kernel
theorem afCoeff_mem : "AFCoeff".toList ∈ polarLabs := by decide +kernel

/-- the loop over the tables: each count is the number of lines of its table, nothing else changes -/
theorem syncTabs_ok (E : Env V) (is : List Nat) (hnd : is.Nodup) (data d : Data V)
    (h : syncTabs E data is = (d, none)) :
    d.length = data.length ∧
    (∀ i ∈ is, ∃ v n, getitem data ("AFCoeff".toList ++ offset i) = some v ∧ E.rows v = some n ∧
      ∀ (j : Nat) (e : Entry V), data[j]? = some e → lower e.label = lower ("NumAlf".toList ++ offset i) →
        d[j]? = some { e with value := E.nat n }) ∧
    (∀ (j : Nat) (e : Entry V), data[j]? = some e →
      (∀ i ∈ is, lower e.label ≠ lower ("NumAlf".toList ++ offset i)) → d[j]? = some e) := by
  induction is generalizing data with
  | nil =>
    simp only [syncTabs, Prod.mk.injEq, and_true] at h
    subst h
    exact ⟨rfl, by simp, fun j e he _ => he⟩
  | cons i is ih =>
    rw [syncTabs] at h
    split at h
    · simp at h
    · rename_i d1 hs
      obtain ⟨v, n, hv, hn, rfl⟩ := syncCount_ok _ _ _ _ _ hs
      obtain ⟨hi, hnd'⟩ := List.nodup_cons.1 hnd
      obtain ⟨h0, h1, h2⟩ := ih hnd' _ h
      refine ⟨by rw [h0, setitem_eq_map, List.length_map], ?_, ?_⟩
      · intro m hm
        rcases List.mem_cons.1 hm with rfl | hm
        · refine ⟨v, n, hv, hn, ?_⟩
          intro j e he hl
          refine h2 j _ ?_ ?_
          · exact setitem_get_same _ _ _ _ _ he hl
          · intro q hq hql
            have := (suffixed_ne _ _ _ _ numAlf_mem numAlf_mem (hl.symm.trans hql)).2
            exact hi (this ▸ hq)
        · obtain ⟨w, p, hw, hp, hset⟩ := h1 m hm
          refine ⟨w, p, ?_, hp, ?_⟩
          · rw [getitem_setitem_ne _ _ _ _ (numAlf_ne_afCoeff m i)] at hw; exact hw
          · intro j e he hl
            refine hset j e ?_ hl
            refine setitem_get_ne _ _ _ _ _ he ?_
            intro q
            have := (suffixed_ne _ _ _ _ numAlf_mem numAlf_mem (hl.symm.trans q)).2
            exact hi (this ▸ hm)
      · intro j e he hne
        refine h2 j e ?_ (fun q hq => hne q (List.mem_cons_of_mem _ hq))
        exact setitem_get_ne _ _ _ _ _ he (hne i List.mem_cons_self)

/-! ### removing the suffixes -/

theorem stripOne_get (data : Data V) (raw off : Str) (j : Nat) :
    (stripOne data raw off)[j]? = data[j]?.map (fun d =>
      if getIDSafe data (raw ++ off) = some j ∧ 0 < j then { d with label := raw } else d) := by
  rw [stripOne]
  cases h : getIDSafe data (raw ++ off) with
  | none => simp
  | some i =>
    simp only [Option.some.injEq]
    by_cases hi : 0 < i
    · rw [if_pos hi, List.getElem?_modify]
      by_cases hj : i = j
      · subst hj; simp [hi]
      · simp [hj]
    · rw [if_neg hi]
      cases data[j]? with
      | none => rfl
      | some d =>
        have : ¬ (i = j ∧ 0 < j) := by omega
        simp [this]

theorem stripOne_length (data : Data V) (raw off : Str) : (stripOne data raw off).length = data.length := by
  rw [stripOne]
  split
  · split
    · simp
    · rfl
  · rfl

/-- `getIDSafe` gives the first position holding the label -/
theorem getIDSafe_iff (data : Data V) (k : Str) (i : Nat) :
    getIDSafe data k = some i ↔
      (∃ e : Entry V, data[i]? = some e ∧ lower e.label = lower k) ∧
      ∀ (j : Nat) (e : Entry V), j < i → data[j]? = some e → lower e.label ≠ lower k := by
  rw [getIDSafe, List.findIdx?_eq_some_iff_getElem]
  constructor
  · rintro ⟨hlt, hi, hpre⟩
    refine ⟨⟨data[i], by simp [hlt], by simpa [sameLabel] using hi⟩, ?_⟩
    intro j e hj he
    have hjl : j < data.length := by omega
    have : data[j] = e := by
      have := List.getElem?_eq_getElem hjl
      rw [he] at this; simpa using this.symm
    have h2 := hpre j hj
    rw [this] at h2
    simpa [sameLabel] using h2
  · rintro ⟨⟨e, he, hl⟩, hpre⟩
    obtain ⟨hlt, rfl⟩ := List.getElem?_eq_some_iff.1 he
    refine ⟨hlt, by simpa [sameLabel] using hl, ?_⟩
    intro j hj
    have hjl : j < data.length := by omega
    have := hpre j data[j] hj (List.getElem?_eq_getElem hjl)
    simpa [sameLabel] using this

/-- a lookup only depends on which positions hold the label -/
theorem getIDSafe_congr (data data' : Data V) (k : Str) (hlen : data'.length = data.length)
    (h : ∀ (j : Nat) (e e' : Entry V), data[j]? = some e → data'[j]? = some e' →
      (lower e'.label = lower k ↔ lower e.label = lower k)) :
    getIDSafe data' k = getIDSafe data k := by
  have key : ∀ (a b : Data V), a.length = b.length →
      (∀ (j : Nat) (e e' : Entry V), a[j]? = some e → b[j]? = some e' →
        (lower e'.label = lower k ↔ lower e.label = lower k)) →
      ∀ i, getIDSafe a k = some i → getIDSafe b k = some i := by
    intro a b hl hab i hi
    obtain ⟨⟨e, he, hlab⟩, hpre⟩ := (getIDSafe_iff a k i).1 hi
    have hlt : i < b.length := by
      have := (List.getElem?_eq_some_iff.1 he).1; omega
    refine (getIDSafe_iff b k i).2 ⟨⟨b[i], List.getElem?_eq_getElem hlt, ?_⟩, ?_⟩
    · exact (hab i e _ he (List.getElem?_eq_getElem hlt)).2 hlab
    · intro j e' hj he'
      have hjl : j < a.length := by
        have := (List.getElem?_eq_some_iff.1 he').1; omega
      have h1 := hpre j a[j] hj (List.getElem?_eq_getElem hjl)
      have h2 := hab j a[j] e' (List.getElem?_eq_getElem hjl) he'
      exact fun q => h1 (h2.1 q)
  cases h1 : getIDSafe data k with
  | some i => exact key data data' hlen.symm h i h1
  | none =>
    cases h2 : getIDSafe data' k with
    | none => rfl
    | some i =>
      have := key data' data hlen (fun j e e' he he' => (h j e' e he' he).symm) i h2
      rw [this] at h1; simp at h1

/-- a job `(raw, suffix)` of the loops -/
def IsJob (p : Str × Str) : Prop := p.1 ∈ polarLabs ∧ ∃ i, p.2 = offset i

theorem stripOne_getID (data : Data V) (p q : Str × Str) (hp : IsJob p) (hq : IsJob q) (hne : p ≠ q) :
    getIDSafe (stripOne data p.1 p.2) (q.1 ++ q.2) = getIDSafe data (q.1 ++ q.2) := by
  apply getIDSafe_congr _ _ _ (stripOne_length ..)
  intro j e e' he he'
  rw [stripOne_get, he] at he'
  simp only [Option.map_some, Option.some.injEq] at he'
  obtain ⟨hp1, ip, hp2⟩ := hp
  obtain ⟨hq1, iq, hq2⟩ := hq
  split at he'
  · rename_i hc
    subst he'
    obtain ⟨⟨e0, h0, hl0⟩, _⟩ := (getIDSafe_iff ..).1 hc.1
    rw [he] at h0
    obtain rfl : e = e0 := by simpa using h0
    constructor
    · intro h
      rw [hq2] at h
      exact absurd h (raw_ne_suffixed _ _ _ hp1)
    · intro h
      exfalso
      apply hne
      rw [hp2] at hl0
      rw [hq2] at h
      obtain ⟨ha, hb⟩ := suffixed_ne _ _ _ _ hp1 hq1 (hl0.symm.trans h)
      exact Prod.ext ha (by rw [hp2, hq2, hb])
  · subst he'; rfl

/-- effect of a list of jobs, in terms of the data before -/
theorem stripFold_get (js : List (Str × Str)) (hj : ∀ p ∈ js, IsJob p) (hnd : js.Nodup) (data : Data V)
    (j : Nat) (e : Entry V) (he : data[j]? = some e) :
    (∀ p ∈ js, getIDSafe data (p.1 ++ p.2) = some j → 0 < j →
      (js.foldl (fun d q => stripOne d q.1 q.2) data)[j]? = some { e with label := p.1 }) ∧
    ((∀ p ∈ js, getIDSafe data (p.1 ++ p.2) = some j → ¬ 0 < j) →
      (js.foldl (fun d q => stripOne d q.1 q.2) data)[j]? = some e) := by
  induction js generalizing data e with
  | nil => exact ⟨by simp, fun _ => he⟩
  | cons q js ih =>
    obtain ⟨hq, hnd'⟩ := List.nodup_cons.1 hnd
    have hj' := fun p hp => hj p (List.mem_cons_of_mem q hp)
    have hget : ∀ p ∈ js, getIDSafe (stripOne data q.1 q.2) (p.1 ++ p.2) = getIDSafe data (p.1 ++ p.2) := by
      intro p hp
      exact stripOne_getID data q p (hj q List.mem_cons_self) (hj' p hp) (fun e => hq (e ▸ hp))
    rw [List.foldl_cons]
    by_cases hc : getIDSafe data (q.1 ++ q.2) = some j ∧ 0 < j
    · have he' : (stripOne data q.1 q.2)[j]? = some { e with label := q.1 } := by
        rw [stripOne_get, he]; simp [hc]
      -- no other job concerns this position
      have hoth : ∀ p ∈ js, ¬ getIDSafe data (p.1 ++ p.2) = some j := by
        intro p hp hpj
        obtain ⟨⟨a, ha, hla⟩, _⟩ := (getIDSafe_iff ..).1 hpj
        obtain ⟨⟨b, hb, hlb⟩, _⟩ := (getIDSafe_iff ..).1 hc.1
        rw [ha] at hb
        obtain rfl : a = b := by simpa using hb
        obtain ⟨hq1, iq, hq2⟩ := hj q List.mem_cons_self
        obtain ⟨hp1, ip, hp2⟩ := hj' p hp
        rw [hq2] at hlb
        rw [hp2] at hla
        obtain ⟨h1, h2⟩ := suffixed_ne _ _ _ _ hq1 hp1 (hlb.symm.trans hla)
        exact hq ((Prod.ext h1 (by rw [hq2, hp2, h2]) : q = p) ▸ hp)
      obtain ⟨_, i2⟩ := ih hj' hnd' _ _ he'
      have hres := i2 (fun p hp hg => absurd (hget p hp ▸ hg) (hoth p hp))
      refine ⟨?_, ?_⟩
      · intro p hp hg h0
        rcases List.mem_cons.1 hp with rfl | hp
        · exact hres
        · exact absurd hg (hoth p hp)
      · intro hno
        exact absurd hc.2 (hno q List.mem_cons_self hc.1)
    · have he' : (stripOne data q.1 q.2)[j]? = some e := by
        rw [stripOne_get, he]; simp [hc]
      obtain ⟨i1, i2⟩ := ih hj' hnd' _ _ he'
      refine ⟨?_, ?_⟩
      · intro p hp hg h0
        rcases List.mem_cons.1 hp with rfl | hp
        · exact absurd ⟨hg, h0⟩ hc
        · exact i1 p hp (by rw [hget p hp]; exact hg) h0
      · intro hno
        refine i2 (fun p hp hg => hno p (List.mem_cons_of_mem q hp) (by rw [← hget p hp]; exact hg))

theorem stripJobs_isJob (n : Nat) : ∀ p ∈ stripJobs n, IsJob p := by
  intro p hp
  simp only [stripJobs, List.mem_flatMap, List.mem_range, List.mem_map] at hp
  obtain ⟨i, _, a, ha, rfl⟩ := hp
  exact ⟨ha, i, rfl⟩

theorem mem_stripJobs (n i : Nat) (raw : Str) (hi : i < n) (hr : raw ∈ polarLabs) :
    (raw, offset i) ∈ stripJobs n := by
  simp only [stripJobs, List.mem_flatMap, List.mem_range, List.mem_map]
  exact ⟨i, hi, raw, hr, rfl⟩

theorem polarLabs_nodup' : polarLabs.Nodup := List.Nodup.of_map _ polarLabs_nodup

theorem stripJobs_nodup (n : Nat) : (stripJobs n).Nodup := by
  rw [stripJobs, List.nodup_flatMap]
  refine ⟨?_, ?_⟩
  · intro i _
    exact polarLabs_nodup'.map (fun a b h => by simpa using congrArg Prod.fst h)
  · refine List.Pairwise.imp ?_ (List.nodup_range (n := n))
    intro i k hik
    simp only [Function.onFun, List.disjoint_left, List.mem_map]
    rintro p ⟨a, _, rfl⟩ ⟨b, _, hb⟩
    have := congrArg Prod.snd hb
    exact hik (offset_inj _ _ this).symm

theorem stripFold_length (js : List (Str × Str)) (data : Data V) :
    (js.foldl (fun d q => stripOne d q.1 q.2) data).length = data.length := by
  induction js generalizing data with
  | nil => rfl
  | cons q js ih => rw [List.foldl_cons, ih, stripOne_length]

theorem stripAll_length (data : Data V) (n : Nat) : (stripAll data n).length = data.length :=
  stripFold_length ..

/-- everything but the labels stays -/
theorem stripAll_rest (data : Data V) (n j : Nat) (e : Entry V) (he : data[j]? = some e) :
    ∃ l, (stripAll data n)[j]? = some { e with label := l } := by
  by_cases h : ∃ p ∈ stripJobs n, getIDSafe data (p.1 ++ p.2) = some j ∧ 0 < j
  · obtain ⟨p, hp, hg, h0⟩ := h
    exact ⟨_, (stripFold_get _ (stripJobs_isJob n) (stripJobs_nodup n) data j e he).1 p hp hg h0⟩
  · refine ⟨e.label, ?_⟩
    exact (stripFold_get _ (stripJobs_isJob n) (stripJobs_nodup n) data j e he).2
      (fun p hp hg h0 => h ⟨p, hp, hg, h0⟩)

/-- putting the labels back gives the object as it was -/
theorem restore_stripAll (data : Data V) (n : Nat) :
    restore (data.map Entry.label) (stripAll data n) = data := by
  apply List.ext_getElem?
  intro j
  rw [restore, List.getElem?_zipWith, List.getElem?_map]
  cases hj : data[j]? with
  | none => simp
  | some e =>
    obtain ⟨l, hl⟩ := stripAll_rest data n j e hj
    simp [hl]

end Verif.FastTypes
