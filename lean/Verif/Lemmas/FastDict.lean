import Verif.Model.FastDict
namespace Verif.FastDict
open Verif.Py

theorem sameLabel_iff (k : Str) (d : Entry V) : sameLabel k d = true ↔ lower d.label = lower k := by
  simp [sameLabel]

/-- setting all matching entries = mapping over the list. -/
theorem setitem_eq_map (data : Data V) (key : Str) (v : V) :
    setitem data key v =
      data.map (fun d => if sameLabel key d then { d with value := v } else d) := by
  unfold setitem getIDs
  apply List.ext_getElem?
  intro j
  -- general statement about folding `modify` over a duplicate-free index list
  have gen : ∀ (I : List Nat) (l : Data V), I.Nodup →
      ((I.foldl (fun data i => data.modify i (fun d => { d with value := v })) l)[j]?) =
        if j ∈ I then l[j]?.map (fun d => { d with value := v }) else l[j]? := by
    intro I
    induction I with
    | nil => intro l _; simp
    | cons i I ih =>
      intro l hnd
      rw [List.foldl_cons, ih _ (List.nodup_cons.mp hnd).2]
      have hni := (List.nodup_cons.mp hnd).1
      by_cases hji : j = i
      · subst hji
        simp [hni]
      · have : (l.modify i (fun d => { d with value := v }))[j]? = l[j]? := by
          rw [List.getElem?_modify]
          simp [Ne.symm hji]
        rw [this]
        simp [hji]
  rw [gen _ _ ((List.nodup_range).filter _)]
  rw [List.getElem?_map]
  cases hj : data[j]? with
  | none => simp
  | some d =>
    have hlt : j < data.length := by
      rcases Nat.lt_or_ge j data.length with h | h
      · exact h
      · simp [List.getElem?_eq_none h] at hj
    simp only [List.mem_filter, List.mem_range, hlt, hj, true_and, Option.map_some]
    split <;> rfl

/-- first value under a label, by structural recursion. -/
def lookup (key : Str) : Data V → Option V
  | [] => none
  | d :: ds => if lower d.label = lower key then some d.value else lookup key ds

theorem getitem_eq_lookup (data : Data V) (key : Str) : getitem data key = lookup key data := by
  unfold getitem getIDSafe
  induction data with
  | nil => simp [lookup]
  | cons d ds ih =>
    rw [lookup, List.findIdx?_cons]
    by_cases h : lower d.label = lower key
    · simp [sameLabel, h]
    · have h' : sameLabel key d = false := by simp [sameLabel, h]
      simp only [h', Bool.false_eq_true, if_false, h]
      rw [← ih]
      cases List.findIdx? (sameLabel key) ds with
      | none => simp
      | some i => simp

theorem lookup_map_set (data : Data V) (key k : Str) (v : V) :
    lookup k (data.map (fun d => if sameLabel key d then { d with value := v } else d)) =
      if lower k = lower key then (lookup k data).map (fun _ => v) else lookup k data := by
  induction data with
  | nil => simp [lookup]
  | cons d ds ih =>
    rw [List.map_cons, lookup, ih, lookup]
    by_cases hd : lower d.label = lower key
    · simp only [sameLabel, hd, beq_self_eq_true, if_true]
      by_cases hk : lower k = lower key
      · simp [hk]
      · simp [hk, Ne.symm hk]
    · have : sameLabel key d = false := by simp [sameLabel, hd]
      simp only [this, Bool.false_eq_true, if_false]
      by_cases hdk : lower d.label = lower k
      · have : lower k ≠ lower key := by rw [← hdk]; exact hd
        simp [hdk, this]
      · simp [hdk]

theorem lookup_append (a b : Data V) (k : Str) :
    lookup k (a ++ b) = match lookup k a with
      | some v => some v
      | none => lookup k b := by
  induction a with
  | nil => simp [lookup]
  | cons d ds ih =>
    rw [List.cons_append, lookup, lookup, ih]
    split <;> simp_all

theorem lookup_none_iff (data : Data V) (k : Str) :
    lookup k data = none ↔ ∀ d ∈ data, lower d.label ≠ lower k := by
  induction data with
  | nil => simp [lookup]
  | cons d ds ih =>
    rw [lookup]
    split
    · rename_i h; simp [h]
    · rename_i h; simp [h, ih]

theorem getIDSafe_none_iff (data : Data V) (k : Str) :
    getIDSafe data k = none ↔ lookup k data = none := by
  rw [lookup_none_iff, getIDSafe, List.findIdx?_eq_none_iff]
  simp [sameLabel]

/-- splitting at the first matching entry. -/
theorem getIDSafe_some (data : Data V) (k : Str) (i : Nat) (h : getIDSafe data k = some i) :
    ∃ pre d post, data = pre ++ d :: post ∧ pre.length = i ∧ lower d.label = lower k ∧
      ∀ e ∈ pre, lower e.label ≠ lower k := by
  unfold getIDSafe at h
  rw [List.findIdx?_eq_some_iff_getElem] at h
  obtain ⟨hlt, hi, hpre⟩ := h
  refine ⟨data.take i, data[i], data.drop (i + 1), ?_, ?_, ?_, ?_⟩
  · rw [List.getElem_cons_drop, List.take_append_drop]
  · simp; omega
  · simpa [sameLabel] using hi
  · intro e he
    rw [List.mem_take_iff_getElem] at he
    obtain ⟨j, hj, rfl⟩ := he
    have := hpre j (by omega)
    simpa [sameLabel] using this

theorem modify_append_at (pre : List α) (d : α) (post : List α) (f : α → α) :
    (pre ++ d :: post).modify pre.length f = pre ++ f d :: post := by
  apply List.ext_getElem?
  intro j
  rw [List.getElem?_modify]
  rcases Nat.lt_trichotomy j pre.length with h | h | h
  · simp [List.getElem?_append_left h]
    have : pre.length ≠ j := by omega
    simp [this]
  · subst h; simp
  · have hne : pre.length ≠ j := by omega
    rw [List.getElem?_append_right (by omega), List.getElem?_append_right (by omega)]
    obtain ⟨n, hn⟩ : ∃ n, j - pre.length = n + 1 := ⟨j - pre.length - 1, by omega⟩
    simp [hn, hne]

/-- shape of `addKeyVal`. -/
theorem addKeyVal_cases (none_ : V) (data : Data V) (key : Str) (v : V) (descr : Option Str) :
    (lookup key data = none ∧ ∃ e : Entry V, addKeyVal none_ data key v descr = data ++ [e] ∧
        e.label = key ∧ e.value = v ∧ e.isComment = false ∧ e.descr = descr.getD []) ∨
    (∃ pre d post, data = pre ++ d :: post ∧ lower d.label = lower key ∧
      (∀ e ∈ pre, lower e.label ≠ lower key) ∧
      addKeyVal none_ data key v descr = pre ++
        { d with label := key, value := v, descr := descr.getD d.descr } :: post) := by
  unfold addKeyVal
  cases h : getIDSafe data key with
  | none =>
    left
    refine ⟨(getIDSafe_none_iff ..).mp h, ?_⟩
    cases descr with
    | none => exact ⟨_, rfl, rfl, rfl, rfl, rfl⟩
    | some s => exact ⟨_, rfl, rfl, rfl, rfl, rfl⟩
  | some i =>
    right
    obtain ⟨pre, d, post, rfl, hlen, h1, h2⟩ := getIDSafe_some _ _ _ h
    refine ⟨pre, d, post, rfl, h1, h2, ?_⟩
    subst hlen
    simp only
    rw [modify_append_at]
    cases descr <;> rfl

theorem lookup_pre (pre : Data V) (d : Entry V) (post : Data V) (key k : Str)
    (hd : lower d.label = lower key) (hpre : ∀ e ∈ pre, lower e.label ≠ lower key) :
    lookup k (pre ++ d :: post) =
      if lower k = lower key then some d.value else
        match lookup k pre with
        | some v => some v
        | none => lookup k post := by
  rw [lookup_append, lookup]
  by_cases hk : lower k = lower key
  · have : lookup k pre = none := by
      rw [lookup_none_iff]; intro e he; rw [hk]; exact hpre e he
    simp [this, hk, hd]
  · simp [hk, hd, Ne.symm hk]

theorem lookup_addKeyVal (none_ : V) (data : Data V) (key k : Str) (v : V) (descr : Option Str) :
    lookup k (addKeyVal none_ data key v descr) =
      if lower k = lower key then some v else lookup k data := by
  rcases addKeyVal_cases none_ data key v descr with
    ⟨hn, e, he, h1, h2, _⟩ | ⟨pre, d, post, hdata, hd, hpre, he⟩
  · rw [he, lookup_append]
    by_cases hk : lower k = lower key
    · have : lookup k data = none := by
        rw [lookup_none_iff] at hn ⊢; rw [hk]; exact hn
      simp [this, lookup, hk, h1, h2]
    · simp only [hk, if_false]
      cases lookup k data with
      | none => simp [lookup, h1, Ne.symm hk]
      | some w => rfl
  · rw [he, lookup_pre (d := { d with label := key, value := v, descr := descr.getD d.descr })
      (key := key) (hd := rfl) (hpre := hpre), hdata, lookup_pre _ _ _ _ _ hd hpre]
    by_cases hk : lower k = lower key <;> simp [hk]

end Verif.FastDict
