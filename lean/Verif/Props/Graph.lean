import Verif.Model.Graph
import Mathlib.Tactic
import Mathlib.Data.List.Nodup
/-!
# C44, C45: graphs

C44 dividing elements, C45 connectivity queries.
-/
namespace Verif.Graph
open Verif.Py

/-! ### Lemmas -/

theorem maxId_le (l : List Int) (m : Int) (h : maxId l = .ok m) : ∀ x ∈ l, x ≤ m := by
  cases l with
  | nil => exact nomatch h
  | cons a l =>
    injection h with h
    subst h
    have key : ∀ (l : List Int) (a : Int), a ≤ l.foldl max a ∧ ∀ x ∈ l, x ≤ l.foldl max a := by
      intro l
      induction l with
      | nil => intro a; exact ⟨le_refl a, by simp⟩
      | cons b l ih =>
        intro a
        obtain ⟨h1, h2⟩ := ih (max a b)
        refine ⟨le_trans (le_max_left a b) h1, ?_⟩
        intro x hx
        rcases List.mem_cons.1 hx with rfl | hx
        · exact le_trans (le_max_right a x) h1
        · exact h2 x hx
    intro x hx
    rcases List.mem_cons.1 hx with rfl | hx
    · exact (key l x).1
    · exact (key l a).2 x hx

theorem maxId_ok (l : List Int) (h : l ≠ []) : ∃ m, maxId l = .ok m := by
  cases l with
  | nil => exact absurd rfl h
  | cons a l => exact ⟨_, rfl⟩

theorem pairs_length (l : List Int) : (pairs l).length = l.length - 1 := by
  induction l with
  | nil => rfl
  | cons a l ih =>
    cases l with
    | nil => rfl
    | cons b l => rw [pairs, List.length_cons, ih]; simp

theorem pairs_get (l : List Int) (i : Nat) (h : i + 1 < l.length) :
    (pairs l)[i]? = some [l[i]'(by omega), l[i + 1]] := by
  induction l generalizing i with
  | nil => simp at h
  | cons a l ih =>
    cases l with
    | nil => simp at h
    | cons b l =>
      rw [pairs]
      cases i with
      | zero => rfl
      | succ i =>
        rw [List.getElem?_cons_succ, ih i (by simpa using h)]
        rfl

theorem subIds_length (n : Nat) (a b m : Int) (hn : 1 ≤ n) : (subIds n a b m).length = n + 1 := by
  simp [subIds]; omega

theorem subIds_inner (n : Nat) (a b m : Int) (i : Nat) (h0 : 0 < i) (hi : i < n) :
    (subIds n a b m)[i]? = some (m + (i : Int)) := by
  obtain ⟨j, rfl⟩ : ∃ j, i = j + 1 := ⟨i - 1, by omega⟩
  rw [subIds, List.cons_append, List.getElem?_cons_succ, List.getElem?_append_left (by simp; omega),
    List.getElem?_map, List.getElem?_range (by omega)]
  simp; omega

/-- `es` is the division of the element `e` into `n` pieces: a chain through new nodes, placed by
`interp` between the two ends -/
def IsDivision (interp : Nat → Nat → P → P → P) (n : Nat) (old new : List (Node P)) (e : Elem D)
    (es : List (Elem D)) : Prop :=
  es.length = n ∧ es.head?.map Elem.id = some e.id ∧
  (∀ x ∈ es, x.data = e.data ∧ x.props = e.props) ∧
  ∃ (c : List Int) (a b : Node P), a ∈ old ∧ b ∈ old ∧ e.nodeIDs = [a.id, b.id] ∧
    c.length = n + 1 ∧ c[0]? = some a.id ∧ c[n]? = some b.id ∧
    (∀ i, i < n → ∃ x y, c[i]? = some x ∧ c[i + 1]? = some y ∧ es[i]?.map Elem.nodeIDs = some [x, y]) ∧
    ∀ i, 0 < i → i < n → ∃ x, c[i]? = some x ∧ x ∉ old.map Node.id ∧ ⟨x, interp i n a.pos b.pos⟩ ∈ new

theorem getNode_spec (nodes : List (Node P)) (i : Int) (h : i ∈ nodes.map Node.id) :
    ∃ a, getNode nodes i = .ok a ∧ a ∈ nodes ∧ a.id = i := by
  obtain ⟨b, hb, hbi⟩ := List.mem_map.1 h
  cases hf : nodes.find? (fun n => n.id = i) with
  | none =>
    rw [List.find?_eq_none] at hf
    exact absurd (decide_eq_true hbi) (hf b hb)
  | some a =>
    have := List.find?_some hf
    exact ⟨a, by rw [getNode, hf], List.mem_of_find?_eq_some hf, of_decide_eq_true this⟩

/-- properties that can be kept -/
def PropsOk (n : Nat) (p : Props) : Prop := n = 1 ∨ ∃ a l, p = .arr (a :: l) ∧ ∀ x ∈ l, x = a

theorem newElems_spec (e : Elem D) (n : Nat) (ids : List Int) (maxE : Int) (hn : 1 ≤ n) (hp : PropsOk n e.props)
    (hl : ids.length = n + 1) :
    ∃ es, newElems e n ids maxE = .ok es ∧ es.length = n - 1 ∧
      es.map Elem.id = (List.range (n - 1)).map (fun (i : Nat) => maxE + 1 + (i : Int)) ∧
      (∀ x ∈ es, x.data = e.data ∧ x.props = e.props) ∧
      ∀ i, i < n - 1 → es[i]?.map Elem.nodeIDs = (pairs ids)[i + 1]? := by
  by_cases h1 : n ≤ 1
  · have : n = 1 := by omega
    subst this
    exact ⟨[], by rw [newElems, if_pos (le_refl 1)], rfl, rfl, by simp, by intro i hi; omega⟩
  · obtain ⟨a, l, hpe, hall⟩ := hp.resolve_left (by omega)
    have hnp : newProps e.props = .ok (.arr (a :: l)) := by
      rw [hpe, newProps, if_pos]
      simp only [List.all_cons, decide_true, Bool.true_and, List.all_eq_true]
      intro x hx
      exact decide_eq_true (hall x hx)
    have hlen : ((pairs ids).drop 1).length = n - 1 := by
      rw [List.length_drop, pairs_length, hl]; omega
    refine ⟨_, by rw [newElems, if_neg h1, hnp], ?_, ?_, ?_, ?_⟩
    · simp only [List.length_map, List.length_zipIdx]; exact hlen
    · rw [List.map_map]
      apply List.ext_getElem?
      intro i
      simp only [List.getElem?_map, List.getElem?_zipIdx, Option.map_map]
      by_cases hi : i < n - 1
      · rw [List.getElem?_range hi]
        obtain ⟨x, hx⟩ : ∃ x, ((pairs ids).drop 1)[i]? = some x := by
          rw [List.getElem?_eq_getElem (by omega)]; exact ⟨_, rfl⟩
        rw [hx]; simp
      · rw [List.getElem?_eq_none (by omega), List.getElem?_eq_none (by simp; omega)]; rfl
    · intro x hx
      obtain ⟨p, _, rfl⟩ := List.mem_map.1 hx
      exact ⟨rfl, hpe.symm⟩
    · intro i hi
      rw [List.getElem?_map, List.getElem?_zipIdx]
      rw [Option.map_map, Option.map_map, List.getElem?_drop, Nat.add_comm 1 i]
      cases (pairs ids)[i + 1]? <;> rfl

/-- one element: all about the new nodes and elements -/
theorem divideElem_spec (interp : Nat → Nat → P → P → P) (n : Nat) (old nodes : List (Node P)) (e : Elem D) (maxE : Int)
    (hn : 1 ≤ n) (hsub : ∀ x ∈ old, x ∈ nodes) (hnd : (nodes.map Node.id).Nodup)
    (he : ∃ a b, e.nodeIDs = [a, b] ∧ a ∈ old.map Node.id ∧ b ∈ old.map Node.id)
    (hp : PropsOk n e.props) :
    ∃ add e' new, divideElem interp n nodes e maxE = .ok (nodes ++ add, e', new) ∧ add.length = n - 1 ∧
      ((nodes ++ add).map Node.id).Nodup ∧ e'.id = e.id ∧
      new.map Elem.id = (List.range (n - 1)).map (fun (i : Nat) => maxE + 1 + (i : Int)) ∧
      IsDivision interp n old (nodes ++ add) e (e' :: new) := by
  obtain ⟨a, b, hab, ha, hb⟩ := he
  have hnodes : ∀ i, i ∈ old.map Node.id → i ∈ nodes.map Node.id := by
    intro i hi
    obtain ⟨x, hx, hxi⟩ := List.mem_map.1 hi
    exact List.mem_map.2 ⟨x, hsub x hx, hxi⟩
  obtain ⟨m, hm⟩ := maxId_ok (nodes.map Node.id) (by
    intro h; have := hnodes a ha; rw [h] at this; exact nomatch this)
  have hle := maxId_le _ _ hm
  have uniq : ∀ x y : Node P, x ∈ nodes → y ∈ nodes → x.id = y.id → x = y := by
    intro x y hx hy hxy
    exact List.inj_on_of_nodup_map hnd hx hy hxy
  have hget : ∀ i, i ∈ old.map Node.id → ∃ k, getNode nodes i = .ok k ∧ k ∈ old ∧ k.id = i := by
    intro i hi
    obtain ⟨k, h1, h2, h3⟩ := getNode_spec nodes i (hnodes i hi)
    obtain ⟨x, hx, hxi⟩ := List.mem_map.1 hi
    have := uniq k x h2 (hsub x hx) (by rw [h3, hxi])
    subst this
    exact ⟨k, h1, hx, h3⟩
  obtain ⟨na, hga, hao, hai⟩ := hget a ha
  obtain ⟨nb, hgb, hbo, hbi⟩ := hget b hb
  have hlen := subIds_length n a b m hn
  obtain ⟨es, hes, hesl, hids, hdat, hnid⟩ := newElems_spec e n (subIds n a b m) maxE hn hp hlen
  have hdiv : divideElem interp n nodes e maxE
      = .ok (nodes ++ newNodes interp n m na.pos nb.pos, { e with nodeIDs := (subIds n a b m).take 2 }, es) := by
    rw [divideElem, hm]
    simp only [hab, hga, hgb, hes]
  have hnid' : (newNodes interp n m na.pos nb.pos).map Node.id
      = (List.range (n - 1)).map (fun (i : Nat) => m + 1 + (i : Int)) := by
    rw [newNodes, List.map_map]; rfl
  refine ⟨_, _, _, hdiv, by simp [newNodes], ?_, rfl, hids, ?_⟩
  · rw [List.map_append, hnid']
    refine List.Nodup.append hnd ?_ ?_
    · refine List.Nodup.map ?_ List.nodup_range
      intro i j h
      simpa using h
    · intro x hx hx'
      obtain ⟨i, _, rfl⟩ := List.mem_map.1 hx'
      have := hle _ hx
      omega
  · have hpg : ∀ i, i < n → ∃ x y, (subIds n a b m)[i]? = some x ∧ (subIds n a b m)[i + 1]? = some y ∧
        (pairs (subIds n a b m))[i]? = some [x, y] := by
      intro i hi
      exact ⟨_, _, List.getElem?_eq_getElem (by omega), List.getElem?_eq_getElem (by omega),
        pairs_get _ i (by omega)⟩
    refine ⟨by rw [List.length_cons, hesl]; omega, rfl, ?_, subIds n a b m, na, nb, hao, hbo, ?_, hlen, ?_, ?_, ?_, ?_⟩
    · intro x hx
      rcases List.mem_cons.1 hx with rfl | hx
      · exact ⟨rfl, rfl⟩
      · exact hdat x hx
    · rw [hab, hai, hbi]
    · rw [hai]; rfl
    · have e1 : (subIds n a b m)[n]? = (subIds n a b m).getLast? := by
        rw [List.getLast?_eq_getElem?, hlen]; rfl
      rw [e1, subIds, List.getLast?_concat, hbi]
    · intro i hi
      obtain ⟨x, y, h1, h2, h3⟩ := hpg i hi
      refine ⟨x, y, h1, h2, ?_⟩
      cases i with
      | zero =>
        show some ((subIds n a b m).take 2) = _
        have e0 : (subIds n a b m).take 2 = [x, y] := by
          match hs : subIds n a b m, h1, h2 with
          | [], h1, _ => exact nomatch h1
          | [u], _, h2 => exact nomatch h2
          | u :: v :: l, h1, h2 =>
            injection h1 with h1
            injection h2 with h2
            rw [h1, h2]; rfl
        rw [e0]
      | succ i =>
        rw [List.getElem?_cons_succ, hnid i (by omega), h3]
    · intro i h0 hi
      refine ⟨_, subIds_inner n a b m i h0 hi, ?_, ?_⟩
      · intro hmem
        have := hle _ (hnodes _ hmem)
        omega
      · rw [List.mem_append]
        right
        rw [newNodes, List.mem_map]
        refine ⟨i - 1, List.mem_range.2 (by omega), ?_⟩
        have e1 : i - 1 + 1 = i := by omega
        have e2 : m + 1 + ((i - 1 : Nat) : Int) = m + (i : Int) := by omega
        rw [e1, e2]

theorem IsDivision.mono {interp : Nat → Nat → P → P → P} {n : Nat} {old new new' : List (Node P)} {e : Elem D}
    {es : List (Elem D)} (h : IsDivision interp n old new e es) (hs : ∀ x ∈ new, x ∈ new') :
    IsDivision interp n old new' e es := by
  obtain ⟨h1, h2, h3, c, a, b, h4, h5, h6, h7, h8, h9, h10, h11⟩ := h
  refine ⟨h1, h2, h3, c, a, b, h4, h5, h6, h7, h8, h9, h10, ?_⟩
  intro i h0 hi
  obtain ⟨x, hx, hx1, hx2⟩ := h11 i h0 hi
  exact ⟨x, hx, hx1, hs _ hx2⟩

/-- the pieces of one element: its division, or itself when excluded -/
def Piece (interp : Nat → Nat → P → P → P) (n : Nat) (excl : D → Bool) (old new : List (Node P)) (e : Elem D)
    (es : List (Elem D)) : Prop :=
  if excl e.data then es = [e] else IsDivision interp n old new e es

theorem divideLoop_spec (interp : Nat → Nat → P → P → P) (n : Nat) (excl : D → Bool) (old : List (Node P)) (hn : 1 ≤ n)
    (es : List (Elem D)) (nodes : List (Node P)) (maxE : Int) (hsub : ∀ x ∈ old, x ∈ nodes)
    (hnd : (nodes.map Node.id).Nodup)
    (he : ∀ e ∈ es, excl e.data = false → (∃ a b, e.nodeIDs = [a, b] ∧ a ∈ old.map Node.id ∧ b ∈ old.map Node.id) ∧
      PropsOk n e.props) :
    ∃ add r, divideLoop interp n excl es nodes maxE = .ok (nodes ++ add, r) ∧
      ((nodes ++ add).map Node.id).Nodup ∧
      add.length = (n - 1) * (es.filter fun e => !excl e.data).length ∧
      r.map (fun x => x.1.id) = es.map Elem.id ∧
      (r.flatMap Prod.snd).map Elem.id = (List.range ((n - 1) * (es.filter fun e => !excl e.data).length)).map
        (fun (i : Nat) => maxE + 1 + (i : Int)) ∧
      List.Forall₂ (fun e x => Piece interp n excl old (nodes ++ add) e (x.1 :: x.2)) es r := by
  induction es generalizing nodes maxE with
  | nil => exact ⟨[], [], by simp [divideLoop], by simpa using hnd, by simp, rfl, by simp, .nil⟩
  | cons e es ih =>
    have hrest : ∀ e ∈ es, excl e.data = false → _ := fun x hx => he x (by simp [hx])
    by_cases hx : excl e.data = true
    · obtain ⟨add, r, h1, h2, h3, h4, h5, h6⟩ := ih nodes maxE hsub hnd hrest
      have hf : (e :: es).filter (fun e => !excl e.data) = es.filter fun e => !excl e.data := by simp [hx]
      refine ⟨add, (e, []) :: r, ?_, h2, by rw [hf]; exact h3, ?_, ?_, .cons ?_ h6⟩
      · rw [divideLoop, if_pos hx, h1]
      · rw [List.map_cons, List.map_cons, h4]
      · rw [hf, List.flatMap_cons, List.nil_append]; exact h5
      · rw [Piece, if_pos hx]
    · have hx : excl e.data = false := by simpa using hx
      obtain ⟨hab, hpr⟩ := he e (by simp) hx
      obtain ⟨add1, e', new, g1, g2, g3, g4, g5, g6⟩ := divideElem_spec interp n old nodes e maxE hn hsub hnd hab hpr
      obtain ⟨add, r, h1, h2, h3, h4, h5, h6⟩ := ih (nodes ++ add1) (maxE + new.length)
        (fun x hx => List.mem_append_left _ (hsub x hx)) g3 hrest
      have hf : (e :: es).filter (fun e => !excl e.data) = e :: es.filter fun e => !excl e.data := by simp [hx]
      have hnl : new.length = n - 1 := by
        have := congrArg List.length g5
        simpa using this
      have hassoc : nodes ++ (add1 ++ add) = nodes ++ add1 ++ add := (List.append_assoc _ _ _).symm
      refine ⟨add1 ++ add, (e', new) :: r, ?_, by rw [hassoc]; exact h2, ?_, ?_, ?_, .cons ?_ ?_⟩
      · rw [divideLoop, if_neg (by rw [hx]; decide), g1]
        simp only [h1, hassoc]
      · rw [List.length_append, g2, h3, hf, List.length_cons]; ring
      · rw [List.map_cons, List.map_cons, h4, g4]
      · rw [hf, List.flatMap_cons, List.map_append, h5]
        show new.map Elem.id ++ _ = _
        rw [g5, List.length_cons, Nat.mul_succ, Nat.add_comm ((n - 1) * _) (n - 1), List.range_add, List.map_append,
          List.map_map]
        congr 1
        apply List.map_congr_left
        intro i _
        simp only [Function.comp, hnl]
        push_cast
        ring
      · rw [Piece, if_neg (by rw [hx]; decide), hassoc]
        exact g6.mono fun x hx => List.mem_append_left _ hx
      · rw [hassoc]; exact h6

/-- the graph has unique IDs, and its elements use its nodes -/
structure Valid (n : Nat) (excl : D → Bool) (g : Graph P D) : Prop where
  nodes : (g.nodes.map Node.id).Nodup
  elems : (g.elems.map Elem.id).Nodup
  nonempty : g.elems ≠ []
  free : g.frozen = false
  ends : ∀ e ∈ g.elems, ∃ a b, e.nodeIDs = [a, b] ∧ a ∈ g.nodes.map Node.id ∧ b ∈ g.nodes.map Node.id
  props : ∀ e ∈ g.elems, excl e.data = false → PropsOk n e.props

/-- **C44**: dividing the elements gives a graph with unique IDs; the nodes are the old ones and
`n-1` new ones per divided element; the elements are the pieces of the old ones, each a chain of
`n` elements from the first to the last node through new nodes.
(Missing for the full property: elements without properties, with properties given as a list, or
with different properties at the ends, for `n ≥ 2`; see the failures below.) -/
theorem C44_partial (interp : Nat → Nat → P → P → P) (n : Nat) (excl : D → Bool) (method : Method) (g : Graph P D)
    (hn : 1 ≤ n) (hv : Valid n excl g) :
    ∃ g' add pieces, divideElements interp n excl method g = .ok g' ∧
      (g'.nodes.map Node.id).Nodup ∧ (g'.elems.map Elem.id).Nodup ∧
      g'.nodes = g.nodes ++ add ∧
      add.length = (n - 1) * (g.elems.filter fun e => !excl e.data).length ∧
      g'.elems.length = g.elems.length + (n - 1) * (g.elems.filter fun e => !excl e.data).length ∧
      List.Forall₂ (Piece interp n excl g.nodes g'.nodes) g.elems pieces ∧
      g'.elems.Perm pieces.flatten ∧ (method = .insert → g'.elems = pieces.flatten) := by
  obtain ⟨maxE, hmE⟩ := maxId_ok (g.elems.map Elem.id) (by simpa using hv.nonempty)
  have hne : g.nodes.map Node.id ≠ [] := by
    obtain ⟨e, he⟩ := List.exists_mem_of_ne_nil _ hv.nonempty
    obtain ⟨a, b, _, ha, _⟩ := hv.ends e he
    intro h; rw [h] at ha; exact nomatch ha
  obtain ⟨mN, hmN⟩ := maxId_ok _ hne
  obtain ⟨add, r, h1, h2, h3, h4, h5, h6⟩ := divideLoop_spec interp n excl g.nodes hn g.elems g.nodes maxE
    (fun _ h => h) hv.nodes (fun e he hx => ⟨hv.ends e he, hv.props e he hx⟩)
  have hle := maxId_le _ _ hmE
  have hidsnd : (g.elems.map Elem.id ++ (r.flatMap Prod.snd).map Elem.id).Nodup := by
    rw [h5]
    refine List.Nodup.append hv.elems ?_ ?_
    · refine List.Nodup.map ?_ List.nodup_range
      intro i j h; simpa using h
    · intro x hx hx'
      obtain ⟨i, _, rfl⟩ := List.mem_map.1 hx'
      have := hle _ hx
      omega
  have hperm : (r.map Prod.fst ++ r.flatMap Prod.snd).Perm (r.flatMap fun x => x.1 :: x.2) := by
    clear h1 h4 h5 h6 hidsnd
    induction r with
    | nil => exact .refl _
    | cons x r ih =>
      rw [List.map_cons, List.flatMap_cons, List.flatMap_cons, List.cons_append, List.cons_append]
      refine .cons _ ?_
      refine List.Perm.trans ?_ (List.Perm.append_left x.2 ih)
      rw [← List.append_assoc, ← List.append_assoc]
      exact List.Perm.append_right _ List.perm_append_comm
  have hfl : (r.map fun x => x.1 :: x.2).flatten = r.flatMap fun x => x.1 :: x.2 := (List.flatMap_def ..).symm
  have happ : (r.map Prod.fst ++ r.flatMap Prod.snd).map Elem.id
      = g.elems.map Elem.id ++ (r.flatMap Prod.snd).map Elem.id := by
    rw [List.map_append, List.map_map, ← h4]; rfl
  have hlen : (r.map Prod.fst ++ r.flatMap Prod.snd).length
      = g.elems.length + (n - 1) * (g.elems.filter fun e => !excl e.data).length := by
    have := congrArg List.length happ
    rw [h5] at this
    simpa using this
  have hF : List.Forall₂ (Piece interp n excl g.nodes (g.nodes ++ add)) g.elems (r.map fun x => x.1 :: x.2) := by
    rw [List.forall₂_map_right_iff]; exact h6
  have hdiv : ∀ el, (match method with
          | .append => r.map Prod.fst ++ r.flatMap Prod.snd
          | .insert => r.flatMap fun x => x.1 :: x.2) = el →
      divideElements interp n excl method g = .ok { g with nodes := g.nodes ++ add, elems := el } := by
    intro el hel
    rw [divideElements, hmN, hmE]
    simp only [h1]
    rw [if_neg (by omega), hv.free, if_neg (by simp), ← hel]
    cases method <;> rfl
  cases method with
  | append =>
    refine ⟨_, add, r.map fun x => x.1 :: x.2, hdiv _ rfl, h2, ?_, rfl, h3, hlen, hF, ?_, fun h => nomatch h⟩
    · rw [happ]; exact hidsnd
    · rw [hfl]; exact hperm
  | insert =>
    refine ⟨_, add, r.map fun x => x.1 :: x.2, hdiv _ rfl, h2, ?_, rfl, h3, ?_, hF, ?_, ?_⟩
    · refine ((hperm.map Elem.id).nodup_iff).1 ?_
      rw [happ]; exact hidsnd
    · rw [← hlen]; exact (hperm.length_eq).symm
    · rw [hfl]
    · intro _; rw [hfl]

/-! ### Example and failures of C44 -/

/-- exact interpolation in one dimension, scaled by `n` -/
def exInterp : Nat → Nat → Int → Int → Int := fun i n p q => p * (n - i) + q * i

/-- a path of two members between three nodes; the data are the member types -/
def exGraph : Graph Int Nat where
  nodes := [⟨10, 0⟩, ⟨3, 5⟩, ⟨7, 6⟩]
  elems := [⟨4, [10, 3], .arr [1, 1], 0⟩, ⟨2, [3, 7], .arr [2, 2], 1⟩]

theorem exValid : Valid 3 (fun t => t = 9) exGraph := by
  refine ⟨by decide, by decide, by decide, rfl, ?_, ?_⟩
  · intro e he
    simp only [exGraph, List.mem_cons, List.not_mem_nil, or_false] at he
    rcases he with rfl | rfl
    · exact ⟨10, 3, rfl, by decide, by decide⟩
    · exact ⟨3, 7, rfl, by decide, by decide⟩
  · intro e he _
    simp only [exGraph, List.mem_cons, List.not_mem_nil, or_false] at he
    rcases he with rfl | rfl
    · exact .inr ⟨1, [1], rfl, by decide⟩
    · exact .inr ⟨2, [2], rfl, by decide⟩

example : 1 ≤ 3 ∧ Valid 3 (fun t => t = 9) exGraph := ⟨by decide, exValid⟩
example : divideElements exInterp 2 (fun t => t = 1) .insert exGraph = .ok
    { nodes := [⟨10, 0⟩, ⟨3, 5⟩, ⟨7, 6⟩, ⟨11, 5⟩]
      elems := [⟨4, [10, 11], .arr [1, 1], 0⟩, ⟨5, [11, 3], .arr [1, 1], 0⟩, ⟨2, [3, 7], .arr [2, 2], 1⟩] } := by
  decide +kernel

/-- **C44**, refusals: a graph with modes or motions of which an element would be divided, and a graph
without elements or nodes, are refused; nothing is divided into zero pieces -/
theorem C44_refused (interp : Nat → Nat → P → P → P) (n : Nat) (excl : D → Bool) (method : Method) (g : Graph P D) :
    (g.nodes = [] ∨ g.elems = [] ∨ n = 0 → divideElements interp n excl method g = .error .value) ∧
    (g.nodes ≠ [] → n ≠ 0 → g.frozen = true → (∃ e ∈ g.elems, excl e.data = false) →
      divideElements interp n excl method g = .error .frozen) := by
  constructor
  · intro h
    rw [divideElements]
    rcases h with h | h | h
    · rw [h]; rfl
    · rw [h]; cases maxId (g.nodes.map Node.id) <;> rfl
    · cases maxId (g.nodes.map Node.id) with
      | error x => rfl
      | ok a =>
        cases maxId (g.elems.map Elem.id) with
        | error x => rfl
        | ok b => simp only; rw [if_pos h]
  · intro hn h0 hf he
    obtain ⟨e, he, hx⟩ := he
    obtain ⟨a, ha⟩ := maxId_ok (g.nodes.map Node.id) (by simpa using hn)
    obtain ⟨b, hb⟩ := maxId_ok (g.elems.map Elem.id) (by simpa using List.ne_nil_of_mem he)
    rw [divideElements, ha, hb]
    simp only
    rw [if_neg h0, if_pos]
    rw [hf, Bool.true_and, List.any_eq_true]
    exact ⟨e, he, by rw [hx]; rfl⟩

example : ({ exGraph with frozen := true } : Graph Int Nat).nodes ≠ [] ∧
    ∃ e ∈ ({ exGraph with frozen := true } : Graph Int Nat).elems, (fun d => d == 1) e.data = false := by decide

/-- **C44 is violated for elements without properties**: every such division into two or more
pieces raises -/
theorem C44_fails (interp : Nat → Nat → P → P → P) (n : Nat) (method : Method) (a b i : Int) (p q : P) (x : D)
    (hn : 2 ≤ n) :
    divideElements interp n (fun _ => false) method ⟨[⟨a, p⟩, ⟨b, q⟩], [⟨i, [a, b], .none, x⟩], false⟩
      = .error .unbound := by
  have h1 : getNode [(⟨a, p⟩ : Node P), ⟨b, q⟩] a = .ok ⟨a, p⟩ := by simp [getNode]
  obtain ⟨k, h2⟩ : ∃ k, getNode [(⟨a, p⟩ : Node P), ⟨b, q⟩] b = .ok k := by
    by_cases h : a = b
    · exact ⟨⟨a, p⟩, by simp [getNode, h]⟩
    · exact ⟨⟨b, q⟩, by simp [getNode, h]⟩
  have h3 : ∀ ids maxE, newElems (⟨i, [a, b], .none, x⟩ : Elem D) n ids maxE = .error .unbound := by
    intro ids maxE
    rw [newElems, if_neg (by omega)]; rfl
  have hl : divideLoop interp n (fun _ => false) [(⟨i, [a, b], .none, x⟩ : Elem D)] [(⟨a, p⟩ : Node P), ⟨b, q⟩] i
      = .error .unbound := by
    rw [divideLoop]
    simp only [divideElem, List.map_cons, List.map_nil, maxId, h1, h2, h3, Bool.false_eq_true, if_false]
  rw [divideElements]
  simp only [List.map_cons, List.map_nil, maxId, List.foldl_nil, hl]
  rw [if_neg (by omega)]
  rfl

/-- C44 fails for properties given as a list, and for different properties at the ends -/
theorem C44_props_fails :
    divideElements exInterp 2 (fun _ => false) .append
      { exGraph with elems := [⟨4, [10, 3], .lst [1, 1], 0⟩] } = .error .type ∧
    divideElements exInterp 2 (fun _ => false) .append
      { exGraph with elems := [⟨4, [10, 3], .arr [1, 2], 0⟩] } = .error .notImplemented := by
  decide +kernel

/-! ### C45 -/

/-- the right answer: computed from the current nodes and elements -/
def current (o : Obj) : Query → Ans
  | .nodeElemIDs => .ids (o.nodes.map fun n => (n, (o.elems.filter fun e => n ∈ e.2).map Prod.fst))
  | .nodeElems => .elems (o.nodes.map fun n => (n, o.elems.filter fun e => n ∈ e.2))
  | .elemNodes => .ids o.elems
  | .conn => .conn (o.elems.map fun e => e.2.map fun i => o.nodes.idxOf i)

/-- C45 fails: after a query, an added element is not seen -/
theorem C45_fails :
    (run {} [.addNode 1, .addNode 2, .addElement (5, [1, 2]), .ask .conn, .addElement (6, [2, 1]), .ask .conn]).2.map
        (fun x => (x.2.2, current x.2.1 x.1))
      = [(.conn [[0, 1]], .conn [[0, 1]]), (.conn [[0, 1]], .conn [[0, 1], [1, 0]])] := by decide +kernel

/-- C45 fails: before the first sorting or division, one query raises on every graph -/
theorem C45_attribute_fails (ops : List Op) (h : ∀ op ∈ ops, ∀ ns es, op ≠ .change ns es) (o : Obj)
    (ho : o.nodeElemIDs = none) : (query (run o ops).1 .nodeElemIDs).2 = .attributeError := by
  have key : (run o ops).1.nodeElemIDs = none := by
    induction ops generalizing o with
    | nil => exact ho
    | cons op ops ih =>
      refine ih (fun x hx => h x (by simp [hx])) _ ?_
      cases op with
      | addNode i => exact ho
      | addElement e => exact ho
      | change ns es => exact absurd rfl (h _ (by simp) ns es)
      | ask q =>
        cases q with
        | nodeElemIDs =>
          show (query o .nodeElemIDs).1.nodeElemIDs = none
          rw [query, ho]; exact ho
        | nodeElems =>
          show (query o .nodeElems).1.nodeElemIDs = none
          rw [query]; split <;> exact ho
        | elemNodes =>
          show (query o .elemNodes).1.nodeElemIDs = none
          rw [query]; split <;> exact ho
        | conn =>
          show (query o .conn).1.nodeElemIDs = none
          rw [query]; split <;> exact ho
  rw [query, key]

/-- histories in which nothing is added between a query and the next sorting or division -/
def Good : Bool → List Op → Prop
  | _, [] => True
  | asked, .addNode _ :: ops => asked = false ∧ Good false ops
  | asked, .addElement _ :: ops => asked = false ∧ Good false ops
  | _, .change _ _ :: ops => Good false ops
  | _, .ask _ :: ops => Good true ops

/-- no cache is filled -/
def Clean (o : Obj) : Prop :=
  (o.nodeElemIDs = none ∨ o.nodeElemIDs = some []) ∧ o.nodeElems = [] ∧ o.elemNodes = [] ∧ o.conn = []

/-- each cache is empty or right -/
def Fresh (o : Obj) : Prop :=
  (o.nodeElemIDs = none ∨ o.nodeElemIDs = some [] ∨ o.nodeElemIDs = some (calcElemIDs o)) ∧
  (o.nodeElems = [] ∨ o.nodeElems = calcElems o) ∧ (o.elemNodes = [] ∨ o.elemNodes = calcElemNodes o) ∧
  (o.conn = [] ∨ o.conn = calcConn o)

theorem Clean.fresh {o : Obj} (h : Clean o) : Fresh o :=
  ⟨h.1.elim .inl (fun h => .inr (.inl h)), .inl h.2.1, .inl h.2.2.1, .inl h.2.2.2⟩

theorem query_fresh (o : Obj) (h : Fresh o) (q : Query) :
    Fresh (query o q).1 ∧ ((query o q).1.nodeElemIDs = none ↔ o.nodeElemIDs = none) ∧
    ((q ≠ .nodeElemIDs ∨ o.nodeElemIDs ≠ none) → (query o q).2 = current o q) := by
  obtain ⟨h1, h2, h3, h4⟩ := h
  cases q with
  | nodeElemIDs =>
    rw [query]
    rcases h1 with h1 | h1 | h1
    · rw [h1]
      exact ⟨⟨.inl h1, h2, h3, h4⟩, by simp [h1], fun h => h.elim (absurd rfl) (absurd rfl)⟩
    · rw [h1]
      exact ⟨⟨.inr (.inr rfl), h2, h3, h4⟩, by simp, fun _ => rfl⟩
    · rw [h1]
      cases hc : calcElemIDs o with
      | nil =>
        refine ⟨⟨.inr (.inr ?_), h2, h3, h4⟩, by simp, fun _ => ?_⟩
        · exact congrArg some hc.symm
        · show Ans.ids [] = Ans.ids (calcElemIDs o)
          rw [hc]
      | cons a l =>
        refine ⟨⟨.inr (.inr h1), h2, h3, h4⟩, by simp [h1], fun _ => ?_⟩
        show Ans.ids (a :: l) = _
        rw [← hc]; rfl
  | nodeElems =>
    rw [query]
    rcases h2 with h2 | h2
    · rw [h2]; exact ⟨⟨h1, .inr rfl, h3, h4⟩, Iff.rfl, fun _ => rfl⟩
    · cases hc : o.nodeElems with
      | nil => exact ⟨⟨h1, .inr rfl, h3, h4⟩, Iff.rfl, fun _ => rfl⟩
      | cons a l =>
        refine ⟨⟨h1, .inr h2, h3, h4⟩, Iff.rfl, fun _ => ?_⟩
        show Ans.elems (a :: l) = _
        rw [← hc, h2]; rfl
  | elemNodes =>
    rw [query]
    rcases h3 with h3 | h3
    · rw [h3]; exact ⟨⟨h1, h2, .inr rfl, h4⟩, Iff.rfl, fun _ => rfl⟩
    · cases hc : o.elemNodes with
      | nil => exact ⟨⟨h1, h2, .inr rfl, h4⟩, Iff.rfl, fun _ => rfl⟩
      | cons a l =>
        refine ⟨⟨h1, h2, .inr h3, h4⟩, Iff.rfl, fun _ => ?_⟩
        show Ans.ids (a :: l) = _
        rw [← hc, h3]; rfl
  | conn =>
    rw [query]
    rcases h4 with h4 | h4
    · rw [h4]; exact ⟨⟨h1, h2, h3, .inr rfl⟩, Iff.rfl, fun _ => rfl⟩
    · cases hc : o.conn with
      | nil => exact ⟨⟨h1, h2, h3, .inr rfl⟩, Iff.rfl, fun _ => rfl⟩
      | cons a l =>
        refine ⟨⟨h1, h2, h3, .inr h4⟩, Iff.rfl, fun _ => ?_⟩
        show Ans.conn (a :: l) = _
        rw [← hc, h4]; rfl

theorem run_good (ops : List Op) (asked : Bool) (o : Obj) (hg : Good asked ops)
    (hc : asked = false → Clean o) (hf : Fresh o) :
    ∀ x ∈ (run o ops).2, (x.1 ≠ .nodeElemIDs ∨ o.nodeElemIDs ≠ none) → x.2.2 = current x.2.1 x.1 := by
  induction ops generalizing asked o with
  | nil => intro x hx; exact nomatch hx
  | cons op ops ih =>
    intro x hx hq
    cases op with
    | addNode i =>
      have hcl := hc hg.1
      exact ih false { o with nodes := o.nodes ++ [i] } hg.2 (fun _ => ⟨hcl.1, hcl.2.1, hcl.2.2.1, hcl.2.2.2⟩) (Clean.fresh ⟨hcl.1, hcl.2.1, hcl.2.2.1, hcl.2.2.2⟩) x hx hq
    | addElement e =>
      have hcl := hc hg.1
      exact ih false { o with elems := o.elems ++ [e] } hg.2 (fun _ => ⟨hcl.1, hcl.2.1, hcl.2.2.1, hcl.2.2.2⟩) (Clean.fresh ⟨hcl.1, hcl.2.1, hcl.2.2.1, hcl.2.2.2⟩) x hx hq
    | change ns es =>
      have hcl : Clean (⟨ns, es, some [], [], [], []⟩ : Obj) := ⟨.inr rfl, rfl, rfl, rfl⟩
      exact ih false _ hg (fun _ => hcl) hcl.fresh x hx (.inr (by exact nofun))
    | ask q =>
      obtain ⟨h1, h2, h3⟩ := query_fresh o hf q
      have hx' : x ∈ [(q, o, (query o q).2)] ++ (run (query o q).1 ops).2 := hx
      rcases List.mem_append.1 hx' with hx' | hx'
      · rw [List.mem_singleton] at hx'
        subst hx'
        exact h3 hq
      · exact ih true _ hg (fun h => nomatch h) h1 x hx' (hq.imp id fun h h' => h (h2.1 h'))

/-- **C45**: every answer describes the current graph if nothing is added between a query and the
next sorting or division; `nodeIDs2ElementIDs` also needs one sorting or division before.
(Missing for the full property: the histories of the two failures above.) -/
theorem C45_partial (o : Obj) (ops : List Op) (ho : Clean o) (hg : Good false ops) :
    ∀ x ∈ (run o ops).2, (x.1 ≠ .nodeElemIDs ∨ o.nodeElemIDs ≠ none) → x.2.2 = current x.2.1 x.1 :=
  run_good ops false o hg (fun _ => ho) ho.fresh

example : Clean ({} : Obj) ∧ Good false [.addNode 1, .addNode 2, .addElement (5, [1, 2]), .ask .conn, .ask .nodeElems,
    .change [2, 1] [(5, [1, 2])], .addElement (6, [2, 1]), .ask .nodeElemIDs] :=
  ⟨⟨.inl rfl, rfl, rfl, rfl⟩, rfl, rfl, rfl, rfl, trivial⟩

end Verif.Graph
