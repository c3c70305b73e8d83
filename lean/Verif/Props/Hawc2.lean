import Verif.Model.Hawc2
import Verif.Lemmas.Str
import Mathlib.Tactic
/-!
# C28, C29: HAWC2 result files
-/
namespace Verif.Hawc2
open Verif.Py

/-! ## C28: channel requests -/

/-- what a request should give: the channels asked for, in order -/
def Right (nrCh : Nat) (chan : Nat → Col) (req : List Nat) (o : Out) : Prop :=
  o = .ok ((if req = [] then List.range nrCh else req).map chan)

/-- Three channels of two samples. -/
def demo (i : Nat) : Col := [(i : ℚ) + 1, (i : ℚ) + 4]

/-- **C28 fails**: after channels 0 and 2, asking for channel 1 returns channel 0;
asking a fresh object for channel 0 twice and channel 1 raises. -/
theorem C28_fails :
    (calls false 3 demo .empty [[0, 2], [1]]).2 = [.ok [demo 0, demo 2], .ok [demo 0]] ∧
    demo 0 ≠ demo 1 ∧
    (calls false 3 demo .empty [[0, 0, 1]]).2 = [.raised] := by
  decide +kernel

/-- **C28 fails**, second cause: a first request whose samples are all zero is
forgotten, although its channels remain registered as known. -/
theorem C28_zero_fails :
    (calls false 2 (fun i => if i = 0 then [0, 0] else [5, 6]) .empty [[0], [1], [0], [1]]).2
      = [.ok [[0, 0]], .ok [[5, 6]], .ok [[5, 6]], .raised] := by
  decide +kernel

theorem sortCh_known (ch known i1 i2 : List Nat) (h : ∀ i ∈ ch, i ∈ known) :
    sortCh ch known i1 i2 = (known, i1 ++ ch.map known.idxOf, i2) := by
  induction ch generalizing i1 with
  | nil => simp [sortCh]
  | cons i t ih =>
    simp only [sortCh, if_pos (h i (by simp))]
    rw [ih _ (fun j hj => h j (by simp [hj]))]
    simp

theorem sortCh_fresh (ch known i1 i2 : List Nat) (hnd : ch.Nodup) (hd : ∀ i ∈ ch, i ∉ known) :
    sortCh ch known i1 i2
      = (known ++ ch, i1 ++ (List.range ch.length).map (fun j => i1.length + j), i2 ++ ch) := by
  induction ch generalizing known i1 i2 with
  | nil => simp [sortCh]
  | cons i t ih =>
    simp only [sortCh, if_neg (hd i (by simp))]
    have hnd' := List.nodup_cons.mp hnd
    rw [ih _ _ _ hnd'.2]
    · simp only [List.append_assoc, List.singleton_append, List.length_cons, List.length_append,
        List.length_nil, List.range_succ_eq_map, List.map_cons, List.map_map]
      congr 2
      simp [Function.comp_def, Nat.add_assoc, Nat.add_comm 1]
    · intro j hj
      simp only [List.mem_append, List.mem_singleton, not_or]
      refine ⟨hd j (by simp [hj]), ?_⟩
      rintro rfl
      exact hnd'.1 hj

theorem pick_synced (known ch : List Nat) (chan : Nat → Col) (h : ∀ i ∈ ch, i ∈ known) :
    pick (known.map chan) (ch.map known.idxOf) = some (ch.map chan) := by
  induction ch with
  | nil => rfl
  | cons i t ih =>
    have h1 : (known.map chan)[known.idxOf i]? = some (chan i) := by
      rw [List.getElem?_map, List.getElem?_idxOf (h i (by simp))]
      rfl
    have ih' := ih (fun j hj => h j (by simp [hj]))
    unfold pick at ih' ⊢
    rw [List.map_cons, List.mapM_cons, h1, ih']
    rfl

theorem pick_range (cols : List Col) :
    pick cols ((List.range cols.length).map (fun j => 0 + j)) = some cols := by
  suffices H : ∀ (pre post : List Col),
      pick (pre ++ post) ((List.range post.length).map (fun j => pre.length + j)) = some post by
    simpa using H [] cols
  intro pre post
  induction post generalizing pre with
  | nil => rfl
  | cons c t ih =>
    have := ih (pre ++ [c])
    unfold pick at this ⊢
    simp only [List.append_assoc, List.singleton_append, List.length_append, List.length_cons,
      List.length_nil] at this
    simp only [List.length_cons, List.range_succ_eq_map, List.map_cons, List.map_map,
      List.mapM_cons]
    have e : ((fun j => pre.length + j) ∘ Nat.succ) = (fun j => pre.length + (0 + 1) + j) := by
      funext j; simp; omega
    rw [e, this]
    simp

theorem call_known (nrCh : Nat) (chan : Nat → Col) (known req : List Nat)
    (hr : ∀ i ∈ req, i < nrCh)
    (h : ∀ i ∈ (if req = [] then List.range nrCh else req), i ∈ known) :
    call false nrCh chan ⟨known, known.map chan⟩ req
      = (⟨known, known.map chan⟩, .ok ((if req = [] then List.range nrCh else req).map chan)) := by
  have hany : (req.any fun i => decide (nrCh ≤ i)) = false := by
    simpa using hr
  unfold call channels
  rw [hany]
  simp only [Bool.false_eq_true, if_false]
  rw [sortCh_known _ _ _ _ h]
  simp only [List.nil_append, extend, if_true]
  rw [pick_synced _ _ _ h]

/-- **C28 (partial)**: on a fresh object, a first request of distinct channels —
in particular the request for all of them — followed by any number of requests
for channels of the first one, in any order and with any repetitions: every
answer is right.  Missing: a later request that adds a channel (see `C28_fails`). -/
theorem C28_partial (nrCh : Nat) (chan : Nat → Col) (first : List Nat) (rest : List (List Nat))
    (hr : ∀ i ∈ first, i < nrCh) (hnd : first.Nodup)
    (hrest : ∀ r ∈ rest, ∀ i ∈ (if r = [] then List.range nrCh else r),
      i ∈ (if first = [] then List.range nrCh else first)) :
    List.Forall₂ (Right nrCh chan) (first :: rest)
      (calls false nrCh chan .empty (first :: rest)).2 := by
  set want := (if first = [] then List.range nrCh else first) with hw
  have hnd' : want.Nodup := by
    rw [hw]; split
    · exact List.nodup_range
    · exact hnd
  have hlt : ∀ i ∈ want, i < nrCh := by
    rw [hw]; split
    · simp
    · exact hr
  have h1 : call false nrCh chan .empty first = (⟨want, want.map chan⟩, .ok (want.map chan)) := by
    have hany : (first.any fun i => decide (nrCh ≤ i)) = false := by simpa using hr
    unfold call channels Cache.empty
    rw [hany]
    simp only [Bool.false_eq_true, if_false]
    rw [← hw, sortCh_fresh want [] [] [] hnd' (by simp)]
    have he : extend chan [] want = want.map chan := by
      unfold extend anyNonzero readAll
      by_cases h : want = [] <;> simp [h]
    simp only [List.nil_append, he, List.length_nil]
    have := pick_range (want.map chan)
    rw [List.length_map] at this
    rw [this]
  have hloop : ∀ rs : List (List Nat), (∀ r ∈ rs, ∀ i ∈ (if r = [] then List.range nrCh else r), i ∈ want) →
      List.Forall₂ (Right nrCh chan) rs (calls false nrCh chan ⟨want, want.map chan⟩ rs).2 := by
    intro rs
    induction rs with
    | nil => intro _; simp [calls]
    | cons r rs ih =>
      intro h
      have hk := h r (by simp)
      have hri : ∀ i ∈ r, i < nrCh := by
        intro i hi
        have : r ≠ [] := by rintro rfl; simp at hi
        rw [if_neg this] at hk
        exact hlt i (hk i hi)
      simp only [calls, call_known nrCh chan want r hri hk]
      exact List.Forall₂.cons rfl (ih (fun r' hr' => h r' (by simp [hr'])))
  simp only [calls, h1]
  exact List.Forall₂.cons rfl (hloop rest hrest)

/-- All channels first, then arbitrary requests. -/
example : List.Forall₂ (Right 3 demo) [[], [2, 0], [1, 1], []]
    (calls false 3 demo .empty [[], [2, 0], [1, 1], []]).2 :=
  C28_partial 3 demo [] [[2, 0], [1, 1], []] (by simp) (by simp) (by decide)

theorem sortCh_append (p q known i1 i2 : List Nat) :
    sortCh (p ++ q) known i1 i2 =
      sortCh q (sortCh p known i1 i2).1 (sortCh p known i1 i2).2.1 (sortCh p known i1 i2).2.2 := by
  induction p generalizing known i1 i2 with
  | nil => rfl
  | cons i p ih =>
    simp only [List.cons_append, sortCh]
    split <;> exact ih _ _ _

/-- a request for all known channels, in any order, followed by new ones -/
theorem call_more (nrCh : Nat) (chan : Nat → Col) (known req p q : List Nat) (hr : ∀ i ∈ req, i < nrCh)
    (h : (if req = [] then List.range nrCh else req) = p ++ q) (hp : p.Perm known) (hq : q.Nodup)
    (hd : ∀ i ∈ q, i ∉ known) (hz : known = [] ∨ ∃ i ∈ known, ∃ x ∈ chan i, x ≠ 0) :
    call false nrCh chan ⟨known, known.map chan⟩ req
      = (⟨known ++ q, (known ++ q).map chan⟩, .ok ((p ++ q).map chan)) := by
  have hany : (req.any fun i => decide (nrCh ≤ i)) = false := by simpa using hr
  unfold call channels
  rw [hany]
  simp only [Bool.false_eq_true, if_false]
  rw [h, sortCh_append, sortCh_known _ _ _ _ (fun i hi => hp.mem_iff.1 hi)]
  simp only [List.nil_append]
  rw [sortCh_fresh _ _ _ _ hq hd]
  simp only [List.nil_append, List.length_map]
  have he : extend chan (known.map chan) q = (known ++ q).map chan := by
    unfold extend readAll
    by_cases hq0 : q = []
    · simp [hq0]
    · rw [if_neg hq0]
      rcases hz with hz | ⟨i, hi, x, hx, h0⟩
      · subst hz; simp [anyNonzero]
      · have : anyNonzero (known.map chan) = true := by
          simp only [anyNonzero, List.any_map, List.any_eq_true, Function.comp, decide_eq_true_eq]
          exact ⟨i, hi, x, hx, h0⟩
        rw [this]; simp
  have hi1 : p.map known.idxOf ++ (List.range q.length).map (fun j => p.length + j) = (p ++ q).map (known ++ q).idxOf := by
    rw [List.map_append]
    congr 1
    · apply List.map_congr_left
      intro i hi
      rw [List.idxOf_append_of_mem (hp.mem_iff.1 hi)]
    · apply List.ext_getElem
      · simp
      · intro j h1 h2
        simp only [List.length_map] at h2
        simp only [List.getElem_map, List.getElem_range]
        rw [List.idxOf_append_of_notMem (hd _ (List.getElem_mem h2)), hq.idxOf_getElem, hp.length_eq]
  rw [hi1, he, pick_synced]
  intro i hi
  rcases List.mem_append.1 hi with hi | hi
  · exact List.mem_append_left _ (hp.mem_iff.1 hi)
  · exact List.mem_append_right _ hi

/-- Histories in which every request either asks for channels that are known already, or asks first
for all the known ones, in any order, and then for new ones.  `all` is what the empty request stands
for. -/
inductive Grows (nrCh : Nat) (chan : Nat → Col) : List Nat → List (List Nat) → Prop
  | nil (k) : Grows nrCh chan k []
  | known (k r rs) : (∀ i ∈ r, i < nrCh) → (∀ i ∈ (if r = [] then List.range nrCh else r), i ∈ k) →
      Grows nrCh chan k rs → Grows nrCh chan k (r :: rs)
  | more (k r rs p q) : (∀ i ∈ r, i < nrCh) → (if r = [] then List.range nrCh else r) = p ++ q → p.Perm k → q.Nodup →
      (∀ i ∈ q, i ∉ k) → (k = [] ∨ ∃ i ∈ k, ∃ x ∈ chan i, x ≠ 0) → Grows nrCh chan (k ++ q) rs →
      Grows nrCh chan k (r :: rs)

/-- **C28 (partial)**, new channels in later requests: every answer is right when each request asks
for known channels only, or first for all the known ones and then for new ones, as long as one of the
samples known is not zero.  Missing: all other histories that add channels (`C28_fails`,
`C28_zero_fails`). -/
theorem C28_grow_partial (nrCh : Nat) (chan : Nat → Col) (reqs : List (List Nat)) (h : Grows nrCh chan [] reqs) :
    List.Forall₂ (Right nrCh chan) reqs (calls false nrCh chan .empty reqs).2 := by
  suffices H : ∀ k reqs, Grows nrCh chan k reqs →
      List.Forall₂ (Right nrCh chan) reqs (calls false nrCh chan ⟨k, k.map chan⟩ reqs).2 from H [] reqs h
  intro k reqs h
  induction h with
  | nil k => simp [calls]
  | known k r rs h1 h2 _ ih =>
    simp only [calls, call_known nrCh chan k r h1 h2]
    exact List.Forall₂.cons rfl ih
  | more k r rs p q h1 h2 h3 h4 h5 h6 _ ih =>
    simp only [calls, call_more nrCh chan k r p q h1 h2 h3 h4 h5 h6]
    exact List.Forall₂.cons (by unfold Right; rw [h2]) ih

example : Grows 4 demo [] [[2, 0], [0, 2, 3], [3, 3], [2, 3, 0, 1]] :=
  .more [] [2, 0] _ [] [2, 0] (by decide) rfl .nil (by decide) (by decide) (.inl rfl)
   (.more [2, 0] [0, 2, 3] _ [0, 2] [3] (by decide) rfl (by decide) (by decide) (by decide) (.inr ⟨2, by decide, 3, by decide +kernel, by decide⟩)
    (.known [2, 0, 3] [3, 3] _ (by decide) (by decide)
     (.more [2, 0, 3] [2, 3, 0, 1] _ [2, 3, 0] [1] (by decide) rfl (by decide) (by decide) (by decide)
       (.inr ⟨2, by decide, 3, by decide +kernel, by decide⟩) (.nil _))))

/-- **C28 in read-only mode**: every history of valid requests is answered
rightly. -/
theorem C28_readOnly (nrCh : Nat) (chan : Nat → Col) (s : Cache) (reqs : List (List Nat))
    (hr : ∀ r ∈ reqs, ∀ i ∈ r, i < nrCh) :
    List.Forall₂ (Right nrCh chan) reqs (calls true nrCh chan s reqs).2 := by
  induction reqs generalizing s with
  | nil => simp [calls]
  | cons r rs ih =>
    have hany : (r.any fun i => decide (nrCh ≤ i)) = false := by
      simpa using hr r (by simp)
    simp only [calls, call, hany]
    exact List.Forall₂.cons rfl (ih _ (fun r' h' => hr r' (by simp [h'])))

example : List.Forall₂ (Right 3 demo) [[0, 2], [1], [0, 0, 1]]
    (calls true 3 demo .empty [[0, 2], [1], [0, 0, 1]]).2 :=
  C28_readOnly 3 demo .empty _ (by decide)

/-- A request with a channel number that is too high returns nothing and changes
nothing. -/
theorem C28_out_of_range (ro : Bool) (nrCh : Nat) (chan : Nat → Col) (s : Cache) (req : List Nat)
    (i : Nat) (hi : i ∈ req) (h : nrCh ≤ i) : call ro nrCh chan s req = (s, .none) := by
  have : (req.any fun i => decide (nrCh ≤ i)) = true := by
    simp only [List.any_eq_true, decide_eq_true_eq]
    exact ⟨i, hi, h⟩
  unfold call
  rw [this]
  simp

example : call false 3 demo .empty [0, 7] = (.empty, .none) :=
  C28_out_of_range false 3 demo .empty [0, 7] 7 (by simp) (by decide)

/-! ## C29: exporting twice -/

/-- **C29 fails**: the name of a body is put in front of the column name at every
export. -/
theorem C29_fails :
    exports (fun _ => []) ["MomentMx Mbdy:tower nodenr".toList] (some ["kNm".toList]) 2 ["Mx coo:tower".toList]
      = [["towerMxb_[kNm]".toList], ["towertowerMxb_[kNm]".toList],
         ["towertowertowerMxb_[kNm]".toList]] := by
  decide +kernel

/-- what the column names of channels already in simple form are -/
def plainColumns (names : List Str) (units : Option (List Str)) : List Str :=
  match units with
  | some us => List.zipWith (fun n u => n ++ "_[".toList ++ u ++ "]".toList) names (us.map cleanUnit)
  | none => names

/-- **C29 (partial)**: when no channel gets a prefix (no body, node, element in its
description) and the names are already in simple form, any number of exports
gives the same names.  Missing: all channels with a prefix (see `C29_fails`). -/
theorem C29_partial (rest : Str → Str) (names descr : List Str) (units : Option (List Str)) (n : Nat)
    (hl : names.length = descr.length)
    (hd : ∀ d ∈ descr, rest d = [] ∧ (findMbdy d).length ≠ 1) (hs : ∀ m ∈ names, simplify m = m) :
    exports rest descr units n names = List.replicate (n + 1) (plainColumns names units) := by
  have h1 : List.zipWith (rename rest) names descr = names := by
    induction names generalizing descr with
    | nil => cases descr <;> simp
    | cons m ms ih =>
      cases descr with
      | nil => simp at hl
      | cons d ds =>
        simp only [List.zipWith_cons_cons]
        rw [ih ds (by simpa using hl) (fun d h => hd d (by simp [h])) (fun m h => hs m (by simp [h]))]
        congr 1
        obtain ⟨h1, h2⟩ := hd d (by simp)
        have h3 := hs m (by simp)
        unfold rename
        simp only [h3, h1]
        split
        · rename_i w hw; rw [hw] at h2; simp at h2
        · simp
  have h2 : columns rest names descr units = (plainColumns names units, names) := by
    unfold columns plainColumns
    simp only [h1]
    cases units <;> rfl
  induction n with
  | zero => simp [exports, h2]
  | succ n ih => simp only [exports, h2, ih, List.replicate_succ]

example : exports (fun _ => []) ["Time".toList, "Omega [rpm] Free wind".toList]
      (some ["s".toList, "(rad/s)".toList]) 5 ["Time".toList, "Omega".toList]
    = List.replicate 6 ["Time_[s]".toList, "Omega_[rad/s]".toList] :=
  (C29_partial (fun _ => []) ["Time".toList, "Omega".toList] _ (some ["s".toList, "(rad/s)".toList]) 5 rfl
    (by decide +kernel) (by decide +kernel)).trans (by decide +kernel)

/-- **C29**, units: whatever brackets stand around a unit, the column shows the unit once in square
brackets. -/
theorem C29_units (u o c : Str) (ho : ∀ x ∈ o ++ c, x ∈ "()[]".toList) (hu : ∀ x ∈ u, x ∉ "()[]".toList) (name : Str) :
    plainColumns [name] (some [o ++ u ++ c]) = [name ++ "_[".toList ++ u ++ "]".toList] := by
  have hb : ∀ l : Str, (∀ x ∈ l, x ∈ "()[]".toList) → cleanUnit l = [] := by
    intro l hl
    unfold cleanUnit
    rw [List.filter_eq_nil_iff]
    intro x hx
    have : ∀ x ∈ "()[]".toList, ¬ (!(x == '(' || x == ')' || x == '[' || x == ']')) = true := by decide
    exact this x (hl x hx)
  have hk : cleanUnit u = u := by
    unfold cleanUnit
    rw [List.filter_eq_self]
    intro x hx
    have := hu x hx
    simp only [String.toList, List.mem_cons, List.not_mem_nil, or_false, not_or] at this
    have e : ∀ y : Char, x ≠ y → (x == y) = false := fun y h => beq_false_of_ne h
    rw [e _ (fun h => hu x hx (by rw [h]; decide)), e _ (fun h => hu x hx (by rw [h]; decide)),
      e _ (fun h => hu x hx (by rw [h]; decide)), e _ (fun h => hu x hx (by rw [h]; decide))]
    rfl
  have : cleanUnit (o ++ u ++ c) = u := by
    have ha : ∀ a b : Str, cleanUnit (a ++ b) = cleanUnit a ++ cleanUnit b := fun a b => List.filter_append ..
    rw [ha, ha, hb o fun x hx => ho x (by simp [hx]), hb c fun x hx => ho x (by simp [hx]), hk]
    simp
  show [name ++ "_[".toList ++ cleanUnit (o ++ u ++ c) ++ "]".toList] = _
  rw [this]

example : (∀ x ∈ "[".toList ++ "]".toList, x ∈ "()[]".toList) ∧ ∀ x ∈ "rad/s".toList, x ∉ "()[]".toList := by decide

/-- **The defect of C29 in general**: a channel whose description names exactly one
body (and nothing else), whose name is in simple form and stays so behind the
prefix, has the body name in front of it `k+1` times in the `k`-th export. -/
theorem C29_growth (d name body : Str) (k : Nat) (hb : findMbdy d = [body])
    (hs : ∀ j ≤ k, simplify ((List.replicate j body).flatten ++ name) = (List.replicate j body).flatten ++ name)
    (hr : ∀ j ≤ k, strip (replace ("coo:".toList ++ body) ['b'] ((List.replicate j body).flatten ++ name))
      = (List.replicate j body).flatten ++ name) :
    (exports (fun _ => []) [d] none k [name])[k]? = some [(List.replicate (k + 1) body).flatten ++ name] := by
  suffices H : ∀ j n : Nat, j + n = k →
      (exports (fun _ => []) [d] none n [(List.replicate j body).flatten ++ name])[n]?
        = some [(List.replicate (k + 1) body).flatten ++ name] by
    simpa using H 0 k (by omega)
  have h1 : ∀ j ≤ k, columns (fun _ => []) [(List.replicate j body).flatten ++ name] [d] none
      = ([(List.replicate (j + 1) body).flatten ++ name], [(List.replicate (j + 1) body).flatten ++ name]) := by
    intro j hj
    unfold columns rename
    simp only [List.zipWith_cons_cons, List.zipWith_nil_left, hb, hs j hj, hr j hj,
      List.replicate_succ, List.flatten_cons]
    simp
  intro j n
  induction n generalizing j with
  | zero =>
    intro h
    have : j = k := by omega
    subst this
    simp only [exports, h1 j le_rfl]
    rfl
  | succ n ih =>
    intro h
    simp only [exports, h1 j (by omega)]
    simpa using ih (j + 1) (by omega)

example : (exports (fun _ => []) ["MomentMx Mbdy:tower n".toList] none 2 ["Mx".toList])[2]?
    = some ["towertowertowerMx".toList] :=
  (C29_growth _ "Mx".toList "tower".toList 2 (by decide +kernel)
    (by decide +kernel) (by decide +kernel)).trans (by decide +kernel)

end Verif.Hawc2
