import Verif.Spec.FastGraph
import Mathlib.Data.List.Forall2
import Mathlib.Tactic.Ring
/-!
# Lemmas on the graph of a SubDyn or HydroDyn file
-/
namespace Verif.FastGraph
open Verif.Py

section
variable {V : Type}

theorem each_ok {A B : Type} (f : A → Except Err B) : ∀ (l : List A) (bs : List B), each f l = .ok bs ↔ List.Forall₂ (fun a b => f a = .ok b) l bs
  | [], bs => by
    rw [each]
    constructor
    · intro h
      obtain rfl := Except.ok.inj h
      exact .nil
    · intro h
      cases h
      rfl
  | a :: l, bs => by
    rw [each]
    constructor
    · intro h
      split at h
      · cases h
      next b hb =>
      split at h
      · cases h
      next bs' hbs =>
      obtain rfl := Except.ok.inj h
      exact .cons hb ((each_ok f l _).1 hbs)
    · intro h
      cases h with
      | cons hb hr => rw [hb, (each_ok f l _).2 hr]

theorem each_total {A B : Type} (f : A → Except Err B) : ∀ (l : List A), (∀ a ∈ l, ∃ b, f a = .ok b) → ∃ bs, each f l = .ok bs
  | [], _ => ⟨[], rfl⟩
  | a :: l, h => by
    obtain ⟨b, hb⟩ := h a (List.mem_cons_self ..)
    obtain ⟨bs, hbs⟩ := each_total f l fun x hx => h x (List.mem_cons_of_mem _ hx)
    exact ⟨b :: bs, by rw [each, hb, hbs]⟩

/-- what a loop keeps -/
theorem fold_inv {A G : Type} (f : G → A → Except Err G) (P : G → Prop) : ∀ (l : List A) (g g' : G), (∀ a ∈ l, ∀ g g', P g → f g a = .ok g' → P g') → P g → fold f g l = .ok g' → P g'
  | [], g, g', _, hp, h => by
    rw [fold] at h
    obtain rfl := Except.ok.inj h
    exact hp
  | a :: l, g, g', hs, hp, h => by
    rw [fold] at h
    split at h
    · cases h
    next g1 h1 => exact fold_inv f P l g1 g' (fun x hx => hs x (List.mem_cons_of_mem _ hx)) (hs a (List.mem_cons_self ..) g g1 hp h1) h

theorem fold_total {A G : Type} (f : G → A → Except Err G) (P : G → Prop) : ∀ (l : List A) (g : G), (∀ a ∈ l, ∀ g, P g → ∃ g', f g a = .ok g' ∧ P g') → P g → ∃ g', fold f g l = .ok g' ∧ P g'
  | [], g, _, hp => ⟨g, rfl, hp⟩
  | a :: l, g, hs, hp => by
    obtain ⟨g1, h1, hp1⟩ := hs a (List.mem_cons_self ..) g hp
    obtain ⟨g', h', hp'⟩ := fold_total f P l g1 (fun x hx => hs x (List.mem_cons_of_mem _ hx)) hp1
    exact ⟨g', by rw [fold, h1]; exact h', hp'⟩

theorem entry_setKey (d : List (String × Val V)) (k : String) (v : Val V) (k' : String) : entry (setKey d k v) k' = if k' = k then some v else entry d k' := by
  rw [setKey]
  by_cases ha : d.any (fun x => x.1 == k) = true
  · rw [if_pos ha]
    induction d with
    | nil => simp at ha
    | cons x d ih =>
      by_cases hx : x.1 = k
      · rw [List.map_cons, if_pos hx]
        by_cases hk : k' = k
        · subst hk
          simp [entry]
        · have h1 : (k == k') = false := by simpa using Ne.symm hk
          have h2 : (x.1 == k') = false := by rw [hx]; exact h1
          rw [if_neg hk]
          simp only [entry, List.find?_cons, h1, h2]
          by_cases hd : d.any (fun x => x.1 == k) = true
          · have := ih hd
            rw [if_neg hk] at this
            simpa [entry] using this
          · have : d.map (fun x => if x.1 = k then (k, v) else x) = d := by
              conv_rhs => rw [← List.map_id d]
              apply List.map_congr_left
              intro y hy
              rw [if_neg]
              · rfl
              · intro hy'
                exact hd (List.any_eq_true.2 ⟨y, hy, by simpa using hy'⟩)
            rw [this]
      · rw [List.map_cons, if_neg hx]
        have hd : d.any (fun x => x.1 == k) = true := by
          rw [List.any_cons] at ha
          simpa [hx] using ha
        have := ih hd
        simp only [entry, List.find?_cons] at this ⊢
        by_cases hk : x.1 = k'
        · have hne : k' ≠ k := fun h => hx (hk.trans h)
          simp [hk, hne]
        · have : (x.1 == k') = false := by simpa using hk
          simp only [this]
          assumption
  · rw [if_neg ha]
    simp only [entry, List.find?_append]
    have hn : ∀ k', k' = k → d.find? (fun x => x.1 == k') = none := by
      rintro _ rfl
      rw [List.find?_eq_none]
      intro x hx hx'
      exact ha (List.any_eq_true.2 ⟨x, hx, hx'⟩)
    by_cases hk : k' = k
    · rw [if_pos hk, hn k' hk, hk]
      simp
    · have h1 : (k == k') = false := by simpa using Ne.symm hk
      rw [if_neg hk]
      simp [List.find?_cons, h1]

/-- what setting data of the first node with an ID does -/
theorem setAt_ok (kvs : List (String × Val V)) (i : Int) : ∀ (ns ns' : List (Node V)), setAt kvs i ns = .ok ns' →
    ns'.map (fun n => (n.id, n.x, n.y, n.z)) = ns.map (fun n => (n.id, n.x, n.y, n.z)) ∧
    ∀ j, ns'.find? (fun n => decide (n.id = j)) = (ns.find? fun n => decide (n.id = j)).map fun n => if j = i then setData n kvs else n
  | [], ns', h => by cases h
  | n :: l, ns', h => by
    rw [setAt] at h
    split at h
    · next hi =>
      obtain rfl := Except.ok.inj h
      refine ⟨rfl, fun j => ?_⟩
      simp only [List.find?_cons, setData]
      by_cases hj : n.id = j
      · have : j = i := hj ▸ hi
        simp [hj, this]
      · have : j ≠ i := fun h => hj (hi.trans h.symm)
        simp [hj, this]
    · next hi =>
      split at h
      · cases h
      next l' hl =>
      obtain rfl := Except.ok.inj h
      obtain ⟨h1, h2⟩ := setAt_ok kvs i l l' hl
      refine ⟨by simp only [List.map_cons, h1], fun j => ?_⟩
      simp only [List.find?_cons]
      by_cases hj : n.id = j
      · have : j ≠ i := fun h => hi (hj.trans h)
        simp [hj, this]
      · simp only [hj, decide_false]
        exact h2 j

theorem setAt_total (kvs : List (String × Val V)) (i : Int) : ∀ (ns : List (Node V)), i ∈ ns.map Node.id → ∃ ns', setAt kvs i ns = .ok ns'
  | n :: l, h => by
    rw [setAt]
    by_cases hi : n.id = i
    · exact ⟨_, by rw [if_pos hi]⟩
    · rw [if_neg hi]
      rw [List.map_cons, List.mem_cons] at h
      rcases h with h | h
      · exact absurd h.symm hi
      · obtain ⟨l', hl⟩ := setAt_total kvs i l h
        exact ⟨n :: l', by rw [hl]⟩

/-- setting one entry -/
theorem setAt_data (g : Graph V) (k : String) (v : Val V) (i : Int) (ns' : List (Node V)) (h : setAt [(k, v)] i g.nodes = .ok ns') (j : Int) (k' : String) :
    nodeData { g with nodes := ns' } j k' = if j = i ∧ k' = k ∧ (g.nodes.find? fun n => decide (n.id = i)).isSome then some v else nodeData g j k' := by
  obtain ⟨_, h2⟩ := setAt_ok _ _ _ _ h
  simp only [nodeData, h2 j]
  by_cases hj : j = i
  · subst hj
    cases hf : g.nodes.find? fun n => decide (n.id = j) with
    | none => simp
    | some n =>
      simp only [Option.map_some, if_true, Option.bind_some, setData, List.foldl_cons, List.foldl_nil, entry_setKey, Option.isSome_some, and_true, true_and]
  · rw [if_neg (fun h => hj h.1)]
    cases g.nodes.find? fun n => decide (n.id = j) with
    | none => rfl
    | some n => simp [hj]

theorem setAt_found (kvs : List (String × Val V)) (i : Int) : ∀ (ns ns' : List (Node V)), setAt kvs i ns = .ok ns' → (ns.find? fun n => decide (n.id = i)).isSome
  | [], _, h => by cases h
  | n :: l, ns', h => by
    rw [setAt] at h
    by_cases hi : n.id = i
    · simp [hi]
    · rw [if_neg hi] at h
      split at h
      · cases h
      next hl => simpa [List.find?_cons, hi] using setAt_found kvs i l _ hl

/-- the places of the nodes -/
def places (g : Graph V) : List (Int × V × V × V) := g.nodes.map fun n => (n.id, n.x, n.y, n.z)

theorem places_ids (g : Graph V) : (places g).map Prod.fst = g.nodes.map Node.id := by
  rw [places, List.map_map]; rfl

/-- a loop that sets one entry for each row: the last row with the ID counts -/
theorem fold_set {f : Graph V → List V → Except Err (Graph V)} (int : V → Int) (key : String) (val : List V → Val V)
    (hf : ∀ g r g', f g r = .ok g' → ∃ i l ns, r = i :: l ∧ setAt [(key, val r)] (int i) g.nodes = .ok ns ∧ g' = { g with nodes := ns }) :
    ∀ (rows : List (List V)) (g g' : Graph V), fold f g rows = .ok g' →
      places g' = places g ∧ g'.elems = g.elems ∧ (∀ j k, k ≠ key → nodeData g' j k = nodeData g j k) ∧
      ∀ j, nodeData g' j key = match lastRow int rows j with
        | some r => some (val r)
        | none => nodeData g j key := by
  intro rows
  induction rows with
  | nil =>
    intro g g' h
    rw [fold] at h
    obtain rfl := Except.ok.inj h
    exact ⟨rfl, rfl, fun _ _ _ => rfl, fun _ => rfl⟩
  | cons r rows ih =>
    intro g g' h
    rw [fold] at h
    split at h
    · cases h
    next g1 h1 =>
    obtain ⟨i, l, ns, rfl, hns, rfl⟩ := hf _ _ _ h1
    obtain ⟨a1, a2, a3, a4⟩ := ih _ _ h
    have hfound := setAt_found _ _ _ _ hns
    refine ⟨?_, a2, ?_, ?_⟩
    · rw [a1]
      exact (setAt_ok _ _ _ _ hns).1
    · intro j k hk
      rw [a3 j k hk, setAt_data g key _ (int i) ns hns, if_neg (fun h => hk h.2.1)]
    · intro j
      rw [a4 j, setAt_data g key _ (int i) ns hns]
      simp only [lastRow, firstRow, List.reverse_cons, List.find?_append]
      cases rows.reverse.find? (fun r => decide (r.head?.map int = some j)) with
      | some r => rfl
      | none =>
        by_cases hj : int i = j
        · simp [hj, hj ▸ hfound]
        · have : j ≠ int i := fun h => hj h.symm
          simp [hj, this]

theorem boundary_step (int : V → Int) (key : String) (conv : List V → List V) (g : Graph V) (r : List V) (g' : Graph V) (h : boundary int key conv g r = .ok g') :
    ∃ i l ns, r = i :: l ∧ setAt [(key, Val.list (conv r.tail))] (int i) g.nodes = .ok ns ∧ g' = { g with nodes := ns } := by
  cases r with
  | nil => cases h
  | cons i l =>
    rw [boundary] at h
    split at h
    · cases h
    next ns hns =>
    obtain rfl := Except.ok.inj h
    exact ⟨i, l, ns, rfl, hns, rfl⟩

theorem mass_step [Ring V] (int : V → Int) (g : Graph V) (r : List V) (g' : Graph V) (h : mass int g r = .ok g') :
    ∃ i l ns, r = i :: l ∧ setAt [("addedMassMatrix", rowMatrix r)] (int i) g.nodes = .ok ns ∧ g' = { g with nodes := ns } := by
  cases r with
  | nil => cases h
  | cons i l =>
    unfold mass at h
    simp only at h
    split at h
    · split at h
      · split at h
        · cases h
        next ns hns =>
        obtain rfl := Except.ok.inj h
        exact ⟨i, _, ns, rfl, hns, rfl⟩
      · cases h
    · cases h

theorem addElement_step (g g' : Graph V) (id : Int) (nodeIDs : List Int) (set : String) (propIDs : List Int) (kind : String) (h : addElement g id nodeIDs set propIDs kind = .ok g') :
    (∀ i ∈ nodeIDs, i ∈ g.nodes.map Node.id) ∧ ∃ ps, List.Forall₂ (fun i p => getProp g set i = .ok p) propIDs ps ∧
      g' = { g with elems := g.elems ++ [⟨id, nodeIDs, set, propIDs, ps, kind⟩] } := by
  rw [addElement] at h
  split at h
  · next ha =>
    split at h
    · cases h
    next ps hps =>
    obtain rfl := Except.ok.inj h
    refine ⟨fun i hi => ?_, ps, (each_ok _ _ _).1 hps, rfl⟩
    obtain ⟨n, hn, hn'⟩ := List.any_eq_true.1 (List.all_eq_true.1 ha i hi)
    exact List.mem_map.2 ⟨n, hn, of_decide_eq_true hn'⟩
  · cases h

theorem addElement_total (g : Graph V) (id : Int) (nodeIDs : List Int) (set : String) (propIDs : List Int) (kind : String) (h : ∀ i ∈ nodeIDs, i ∈ g.nodes.map Node.id)
    (hp : ∀ i ∈ propIDs, ∃ p, getProp g set i = .ok p) : ∃ ps, addElement g id nodeIDs set propIDs kind = .ok { g with elems := g.elems ++ [⟨id, nodeIDs, set, propIDs, ps, kind⟩] } := by
  obtain ⟨ps, hps⟩ := each_total (getProp g set) propIDs hp
  refine ⟨ps, ?_⟩
  rw [addElement, if_pos, hps]
  rw [List.all_eq_true]
  intro i hi
  obtain ⟨n, hn, hn'⟩ := List.mem_map.1 (h i hi)
  exact List.any_eq_true.2 ⟨n, hn, by simpa using hn'⟩

theorem propOf_ok (int : V → Int) (names : List String) (r : List V) (p : Property V) (h : propOf int names r = .ok p) : PropIs int names r p := by
  cases r with
  | nil => cases h
  | cons i l =>
    rw [propOf] at h
    split at h
    · cases h
    next hl =>
    obtain rfl := Except.ok.inj h
    refine ⟨rfl, by simp; omega, fun j n hn => ?_⟩
    have hj : j < names.length := by
      by_contra hj
      rw [List.getElem?_eq_none (by omega)] at hn
      cases hn
    have hj' : j < l.length := by omega
    simp only [List.getElem?_cons_succ, List.getElem?_eq_getElem hj', Option.map_some]
    rw [List.getElem?_eq_getElem hj] at hn
    obtain rfl := Option.some.inj hn
    rw [List.getElem?_eq_getElem (by simp; omega)]
    simp

theorem propOf_total (int : V → Int) (names : List String) (r : List V) (h : names.length < r.length) : ∃ p, propOf int names r = .ok p := by
  cases r with
  | nil => simp at h
  | cons i l =>
    rw [propOf, if_neg (by simp at h; omega)]
    exact ⟨_, rfl⟩

theorem cable_ok [Ring V] (int : V → Int) (r : List V) (p : Property V) (h : cableProp int (-1) r = .ok p) : CableIs int r p ∧ r.head?.map int = some p.id := by
  match r, h with
  | i :: ea :: rho :: t0 :: rest, h =>
    rw [cableProp] at h
    obtain rfl := Except.ok.inj h
    refine ⟨⟨i, ea, rho, t0, rest, rfl, rfl, rfl, rfl, rfl, ?_⟩, rfl⟩
    cases rest <;> rfl
  | [], h => cases h
  | [_], h => cases h
  | [_, _], h => cases h
  | [_, _, _], h => cases h

theorem cable_total [Ring V] (int : V → Int) (r : List V) (h : 4 ≤ r.length) : ∃ p, cableProp int (-1) r = .ok p := by
  match r, h with
  | i :: ea :: rho :: t0 :: rest, _ => exact ⟨_, rfl⟩

theorem find_prop (int : V → Int) (f : List V → Except Err (Property V)) (hf : ∀ r p, f r = .ok p → r.head?.map int = some p.id) (i : Int) :
    ∀ (rows : List (List V)) (ps : List (Property V)), List.Forall₂ (fun r p => f r = .ok p) rows ps →
      (∀ p, ps.find? (fun p => decide (p.id = i)) = some p → ∃ r, firstRow int rows i = some r ∧ f r = .ok p) ∧
      ((firstRow int rows i).isSome → (ps.find? fun p => decide (p.id = i)).isSome)
  | [], [], _ => ⟨(by intro p h; cases h), (by intro h; cases h)⟩
  | r :: rows, p :: ps, .cons h hr => by
    obtain ⟨h1, h2⟩ := find_prop int f hf i rows ps hr
    have e := hf r p h
    simp only [firstRow, List.find?_cons, e]
    by_cases hi : p.id = i
    · simp only [hi, decide_true]
      refine ⟨fun p' hp' => ⟨r, rfl, ?_⟩, fun _ => rfl⟩
      rw [← Option.some.inj hp']
      exact h
    · have : ¬ some p.id = some i := fun h => hi (Option.some.inj h)
      simp only [hi, this, decide_false]
      exact ⟨h1, h2⟩

/-- the sets of a SubDyn file -/
def Sets [Ring V] (int : V → Int) (sd : SubDyn V) (sets : List (String × List (Property V))) : Prop :=
  ∃ bs cs rs, each (propOf int ["E", "G", "rho", "D", "t"]) sd.beam = .ok bs ∧ optSet "Cable" (cableProp int (-1)) sd.cable = .ok cs ∧ optSet "Rigid" (propOf int ["rho"]) sd.rigid = .ok rs ∧
    sets = ("Beam", bs) :: cs ++ rs

theorem optSet_cases (name : String) (f : List V → Except Err (Property V)) (o : Option (List (List V))) (s : List (String × List (Property V))) (h : optSet name f o = .ok s) :
    (o = none ∧ s = []) ∨ ∃ rows ps, o = some rows ∧ s = [(name, ps)] ∧ List.Forall₂ (fun r p => f r = .ok p) rows ps := by
  cases o with
  | none => obtain rfl := Except.ok.inj h; exact .inl ⟨rfl, rfl⟩
  | some rows =>
    rw [optSet] at h
    split at h
    · cases h
    next ps hps =>
    obtain rfl := Except.ok.inj h
    exact .inr ⟨rows, ps, rfl, rfl, (each_ok _ _ _).1 hps⟩

theorem setOf_cases (t : Int) (set : String) (h : setOf t = .ok set) : (set = "Beam" ∨ set = "Cable" ∨ set = "Rigid") ∧ ∀ s, setName t = some s → set = s := by
  rw [setOf] at h
  split at h
  · next ht =>
    obtain rfl := Except.ok.inj h
    refine ⟨.inl rfl, fun s hs => ?_⟩
    rcases ht with rfl | rfl
    · exact Option.some.inj hs
    · cases hs
  split at h
  · next ht =>
    obtain rfl := Except.ok.inj h
    refine ⟨.inr (.inl rfl), fun s hs => ?_⟩
    rcases ht with rfl | rfl
    · exact Option.some.inj hs
    · cases hs
  split at h
  · next ht =>
    obtain rfl := Except.ok.inj h
    refine ⟨.inr (.inr rfl), fun s hs => ?_⟩
    rcases ht with rfl | rfl
    · exact Option.some.inj hs
    · cases hs
  · cases h

theorem setName_of (t : Int) (set : String) (h : setName t = some set) : setOf t = .ok set := by
  unfold setName at h
  split at h
  · obtain rfl := Option.some.inj h; rfl
  · obtain rfl := Option.some.inj h; rfl
  · obtain rfl := Option.some.inj h; rfl
  · cases h

theorem getProp_ok [Ring V] (int : V → Int) (sd : SubDyn V) (g : Graph V) (hs : Sets int sd g.sets) (set : String) (hset : set = "Beam" ∨ set = "Cable" ∨ set = "Rigid") (i : Int) :
    (∀ p, getProp g set i = .ok p → PropOf int sd set i p) ∧ ((firstRow int (tableOf sd set) i).isSome → ∃ p, getProp g set i = .ok p) := by
  obtain ⟨bs, cs, rs, hb, hc, hr, hsets⟩ := hs
  have hb := (each_ok _ _ _).1 hb
  have key : ∀ ps : List (Property V), g.sets.find? (fun x => x.1 == set) = some (set, ps) → (∀ p, getProp g set i = .ok p → ps.find? (fun p => decide (p.id = i)) = some p) ∧
      ((ps.find? fun p => decide (p.id = i)).isSome → ∃ p, getProp g set i = .ok p) := by
    intro ps hps
    rw [getProp, hps]
    cases h : ps.find? fun p => decide (p.id = i) with
    | none => simp [h]
    | some p => simp [h]
  have none_ : g.sets.find? (fun x => x.1 == set) = none → ∀ p, getProp g set i ≠ .ok p := by
    intro h p
    rw [getProp, h]
    intro h
    cases h
  rcases hset with rfl | rfl | rfl
  · have hf : g.sets.find? (fun x => x.1 == "Beam") = some ("Beam", bs) := by rw [hsets]; rfl
    obtain ⟨k1, k2⟩ := key bs hf
    obtain ⟨f1, f2⟩ := find_prop int _ (fun r p h => (propOf_ok int _ r p h).1) i _ _ hb
    refine ⟨fun p hp => ?_, fun h => k2 (f2 h)⟩
    obtain ⟨r, hr1, hr2⟩ := f1 p (k1 p hp)
    exact .inl ⟨rfl, r, hr1, propOf_ok int _ r p hr2⟩
  · rcases optSet_cases _ _ _ _ hc with ⟨ho, rfl⟩ | ⟨rows, ps, ho, rfl, hps⟩
    · have hf : g.sets.find? (fun x => x.1 == "Cable") = none := by
        rcases optSet_cases _ _ _ _ hr with ⟨_, rfl⟩ | ⟨_, _, _, rfl, _⟩ <;> (rw [hsets]; rfl)
      refine ⟨fun p hp => absurd hp (none_ hf p), fun h => ?_⟩
      rw [show tableOf sd "Cable" = sd.cable.getD [] from rfl, ho] at h
      cases h
    · have hf : g.sets.find? (fun x => x.1 == "Cable") = some ("Cable", ps) := by rw [hsets]; rfl
      obtain ⟨k1, k2⟩ := key ps hf
      obtain ⟨f1, f2⟩ := find_prop int _ (fun r p h => (cable_ok int r p h).2) i _ _ hps
      refine ⟨fun p hp => ?_, fun h => k2 (f2 ?_)⟩
      · obtain ⟨r, hr1, hr2⟩ := f1 p (k1 p hp)
        exact .inr (.inl ⟨rfl, rows, r, ho, hr1, (cable_ok int r p hr2).1⟩)
      · rw [show tableOf sd "Cable" = sd.cable.getD [] from rfl, ho] at h
        exact h
  · rcases optSet_cases _ _ _ _ hr with ⟨ho, rfl⟩ | ⟨rows, ps, ho, rfl, hps⟩
    · have hf : g.sets.find? (fun x => x.1 == "Rigid") = none := by
        rcases optSet_cases _ _ _ _ hc with ⟨_, rfl⟩ | ⟨_, _, _, rfl, _⟩ <;> (rw [hsets]; rfl)
      refine ⟨fun p hp => absurd hp (none_ hf p), fun h => ?_⟩
      rw [show tableOf sd "Rigid" = sd.rigid.getD [] from rfl, ho] at h
      cases h
    · have hf : g.sets.find? (fun x => x.1 == "Rigid") = some ("Rigid", ps) := by
        rcases optSet_cases _ _ _ _ hc with ⟨_, rfl⟩ | ⟨_, _, _, rfl, _⟩ <;> (rw [hsets]; rfl)
      obtain ⟨k1, k2⟩ := key ps hf
      obtain ⟨f1, f2⟩ := find_prop int _ (fun r p h => (propOf_ok int _ r p h).1) i _ _ hps
      refine ⟨fun p hp => ?_, fun h => k2 (f2 ?_)⟩
      · obtain ⟨r, hr1, hr2⟩ := f1 p (k1 p hp)
        exact .inr (.inr ⟨rfl, rows, r, ho, hr1, propOf_ok int _ r p hr2⟩)
      · rw [show tableOf sd "Rigid" = sd.rigid.getD [] from rfl, ho] at h
        exact h

theorem joint_ok (int : V → Int) (one : V) (r : List V) (n : Node V) (h : joint int one r = .ok n) :
    JointIs int r (n.id, n.x, n.y, n.z) ∧ r.head?.map int = some n.id ∧ n.data = [("Type", .num ((r.drop 4).headD one))] := by
  match r, h with
  | i :: x :: y :: z :: rest, h =>
    rw [joint] at h
    obtain rfl := Except.ok.inj h
    exact ⟨⟨i, x, y, z, rest, rfl, rfl⟩, rfl, rfl⟩
  | [], h => cases h
  | [_], h => cases h
  | [_, _], h => cases h
  | [_, _, _], h => cases h

theorem joints_ok (int : V → Int) (one : V) : ∀ (rows : List (List V)) (ns : List (Node V)), List.Forall₂ (fun r n => joint int one r = .ok n) rows ns →
    List.Forall₂ (JointIs int) rows (ns.map fun n => (n.id, n.x, n.y, n.z)) ∧ ns.map Node.id = jointIDs int rows ∧
    ∀ i, (ns.find? fun n => decide (n.id = i)).map Node.data = (firstRow int rows i).map fun r => [("Type", .num ((r.drop 4).headD one))]
  | [], [], _ => ⟨.nil, rfl, fun _ => rfl⟩
  | r :: rows, n :: ns, .cons h hr => by
    obtain ⟨a1, a2, a3⟩ := joints_ok int one rows ns hr
    obtain ⟨b1, b2, b3⟩ := joint_ok int one r n h
    refine ⟨.cons b1 a1, ?_, fun i => ?_⟩
    · rw [List.map_cons, a2, jointIDs, jointIDs, List.filterMap_cons, b2]
    · simp only [firstRow, List.find?_cons, b2]
      by_cases hi : n.id = i
      · simp [hi, b3]
      · have : ¬ some n.id = some i := fun h => hi (Option.some.inj h)
        simp only [hi, this, decide_false]
        exact a3 i

theorem member_ok [Ring V] (int : V → Int) (sd : SubDyn V) (g g' : Graph V) (hs : Sets int sd g.sets) (hn : g.nodes.map Node.id = jointIDs int sd.joints) (r : List V)
    (h : member g (r.map int) = .ok g') : ∃ e, MemberIs int sd r e ∧ g' = { g with elems := g.elems ++ [e] } := by
  unfold member at h
  simp only at h
  split at h
  · cases h
  next t ht =>
  split at h
  · cases h
  next set hset =>
  obtain ⟨hnodes, ps, hps, rfl⟩ := addElement_step _ _ _ _ _ _ _ h
  obtain ⟨hc, hname⟩ := setOf_cases t set hset
  have hrow : ∃ id a b p q, MemberRow int r id a b p q t ∧ (r.map int).headD 0 = id ∧ ((r.map int).drop 1).take 2 = [a, b] ∧ ((r.map int).drop 3).take 2 = [p, q] := by
    generalize hE : r.map int = E at ht
    split at ht
    · next hl =>
      obtain rfl := Except.ok.inj ht
      match E, hl with
      | [id, a, b, p, q], _ => exact ⟨id, a, b, p, q, .inl ⟨hE, rfl⟩, rfl, rfl, rfl⟩
    · next hl =>
      match E, ht with
      | id :: a :: b :: p :: q :: t' :: rest, ht =>
        have : t' = t := Except.ok.inj ht
        subst this
        exact ⟨id, a, b, p, q, .inr ⟨rest, hE⟩, rfl, rfl, rfl⟩
      | [], ht => cases ht
      | [_], ht => cases ht
      | [_, _], ht => cases ht
      | [_, _, _], ht => cases ht
      | [_, _, _, _], ht => cases ht
      | [_, _, _, _, _], ht => exact absurd rfl hl
  obtain ⟨id, a, b, p, q, hrow, e1, e2, e3⟩ := hrow
  rw [e2] at hnodes
  rw [e3] at hps
  rw [e1, e2, e3]
  obtain ⟨P, hP, Q, hQ, rfl⟩ : ∃ P, getProp g set p = .ok P ∧ ∃ Q, getProp g set q = .ok Q ∧ ps = [P, Q] := by
    cases hps with
    | cons h1 h2 =>
      cases h2 with
      | cons h2 h3 =>
        cases h3
        exact ⟨_, h1, _, h2, rfl⟩
  refine ⟨_, ⟨a, b, p, q, t, P, Q, hrow, rfl, ?_, ?_, hname, rfl, rfl, rfl, (getProp_ok int sd g hs set hc p).1 P hP, (getProp_ok int sd g hs set hc q).1 Q hQ⟩, rfl⟩
  · rw [← hn]; exact hnodes a (by simp)
  · rw [← hn]; exact hnodes b (by simp)

theorem members_ok [Ring V] (int : V → Int) (sd : SubDyn V) : ∀ (rows : List (List V)) (g g' : Graph V), Sets int sd g.sets → g.nodes.map Node.id = jointIDs int sd.joints →
    fold member g (rows.map fun r => r.map int) = .ok g' → ∃ es, List.Forall₂ (MemberIs int sd) rows es ∧ g' = { g with elems := g.elems ++ es }
  | [], g, g', _, _, h => by
    rw [List.map_nil, fold] at h
    obtain rfl := Except.ok.inj h
    exact ⟨[], .nil, by simp⟩
  | r :: rows, g, g', hs, hn, h => by
    rw [List.map_cons, fold] at h
    split at h
    · cases h
    next g1 h1 =>
    obtain ⟨e, he, rfl⟩ := member_ok int sd g g1 hs hn r h1
    obtain ⟨es, hes, rfl⟩ := members_ok int sd rows { g with elems := g.elems ++ [e] } g' hs hn h
    exact ⟨e :: es, .cons he hes, by simp⟩

theorem toInts_eq (round : V → V) (l : List V) : toInts round l = l.mapIdx fun j v => if j < 6 then round v else v := by
  apply List.ext_getElem?
  intro j
  rw [toInts, List.getElem?_mapIdx]
  by_cases hj : j < 6
  · simp only [hj, if_true]
    by_cases hl : j < l.length
    · rw [List.getElem?_append_left (by simp; omega)]
      simp [hj]
    · rw [List.getElem?_eq_none (by simp; omega), List.getElem?_eq_none (by omega)]
      rfl
  · simp only [hj, if_false]
    by_cases hl : j < l.length
    · rw [List.getElem?_append_right (by simp; omega), List.getElem?_drop]
      simp only [List.length_map, List.length_take]
      rw [show 6 + (j - min 6 l.length) = j by omega]
      simp
    · rw [List.getElem?_eq_none (by simp; omega), List.getElem?_eq_none (by omega)]
      rfl

theorem subdyn_ok [Ring V] (int : V → Int) (round : V → V) (sd : SubDyn V) (g : Graph V) (h : subdyn int round sd = .ok g) :
    ∃ sets ns g1 g2 g3, Sets int sd sets ∧ List.Forall₂ (fun r n => joint int 1 r = .ok n) sd.joints ns ∧
      fold member { sets := sets, nodes := ns } (sd.members.map fun r => r.map int) = .ok g1 ∧ fold (mass int) g1 sd.masses = .ok g2 ∧
      fold (boundary int "IBC" id) g2 sd.interface = .ok g3 ∧ fold (boundary int "RBC" (toInts round)) g3 sd.base = .ok g := by
  unfold subdyn at h
  split at h
  · cases h
  next bs hb =>
  split at h
  · cases h
  next cs hc =>
  split at h
  · cases h
  next rs hr =>
  split at h
  · cases h
  next ns hns =>
  split at h
  · cases h
  next g1 h1 =>
  split at h
  · cases h
  next g2 h2 =>
  split at h
  · cases h
  next g3 h3 =>
  exact ⟨_, ns, g1, g2, g3, ⟨bs, cs, rs, hb, hc, hr, rfl⟩, (each_ok _ _ _).1 hns, h1, h2, h3, h⟩

theorem optSet_total (name : String) (f : List V → Except Err (Property V)) (o : Option (List (List V))) (h : ∀ rows, o = some rows → ∀ r ∈ rows, ∃ p, f r = .ok p) :
    ∃ s, optSet name f o = .ok s := by
  cases o with
  | none => exact ⟨[], rfl⟩
  | some rows =>
    obtain ⟨ps, hps⟩ := each_total f rows (h rows rfl)
    exact ⟨[(name, ps)], by rw [optSet, hps]⟩

theorem joint_total (int : V → Int) (one : V) (r : List V) (h : 4 ≤ r.length) : ∃ n, joint int one r = .ok n := by
  match r, h with
  | i :: x :: y :: z :: rest, _ => exact ⟨_, rfl⟩

theorem member_total [Ring V] (int : V → Int) (sd : SubDyn V) (g : Graph V) (hs : Sets int sd g.sets) (hn : g.nodes.map Node.id = jointIDs int sd.joints) (r : List V)
    (h : ∃ id a b p q t set, MemberRow int r id a b p q t ∧ setName t = some set ∧ a ∈ jointIDs int sd.joints ∧ b ∈ jointIDs int sd.joints ∧
      (firstRow int (tableOf sd set) p).isSome ∧ (firstRow int (tableOf sd set) q).isSome) : ∃ g', member g (r.map int) = .ok g' := by
  obtain ⟨id, a, b, p, q, t, set, hrow, hset, ha, hb, hp, hq⟩ := h
  have hof := setName_of t set hset
  have hc := (setOf_cases t set hof).1
  have key : ∃ ps, addElement g id [a, b] set [p, q] set = .ok { g with elems := g.elems ++ [⟨id, [a, b], set, [p, q], ps, set⟩] } := by
    apply addElement_total
    · intro i hi
      rw [hn]
      rcases List.mem_cons.1 hi with rfl | hi
      · exact ha
      · rw [List.mem_singleton.1 hi]; exact hb
    · intro i hi
      rcases List.mem_cons.1 hi with rfl | hi
      · exact (getProp_ok int sd g hs set hc _).2 hp
      · rw [List.mem_singleton.1 hi]; exact (getProp_ok int sd g hs set hc _).2 hq
  obtain ⟨ps, hps⟩ := key
  refine ⟨{ g with elems := g.elems ++ [⟨id, [a, b], set, [p, q], ps, set⟩] }, ?_⟩
  rcases hrow with ⟨hr, rfl⟩ | ⟨rest, hr⟩
  · rw [hr, member]
    simp only [List.length_cons, List.length_nil, if_true]
    rw [hof]
    exact hps
  · rw [hr, member]
    simp only [List.length_cons, item, List.getElem?_cons_succ, List.getElem?_cons_zero]
    rw [if_neg (by omega)]
    simp only
    rw [hof]
    exact hps

theorem set_total (int : V → Int) (kvs : List (String × Val V)) (i : V) (ids : List Int) (g : Graph V) (hn : g.nodes.map Node.id = ids) (hi : int i ∈ ids) :
    ∃ ns, setAt kvs (int i) g.nodes = .ok ns ∧ ns.map Node.id = ids := by
  obtain ⟨ns, hns⟩ := setAt_total kvs (int i) g.nodes (hn ▸ hi)
  refine ⟨ns, hns, ?_⟩
  have := congrArg (List.map Prod.fst) (setAt_ok _ _ _ _ hns).1
  rw [List.map_map, List.map_map] at this
  rw [← hn]
  exact this

theorem mass_total [Ring V] (int : V → Int) (ids : List Int) (g : Graph V) (hn : g.nodes.map Node.id = ids) (r : List V) (hl : r.length = 11) (hi : ∀ i ∈ r.head?, int i ∈ ids) :
    ∃ g', mass int g r = .ok g' ∧ g'.nodes.map Node.id = ids := by
  match r, hl with
  | [i, m, Jxx, Jyy, Jzz, Jxy, Jxz, Jyz, x, y, z], _ =>
    obtain ⟨ns, hns, hids⟩ := set_total int [("addedMassMatrix", .mat (massMatrix m x y z Jxx Jyy Jzz Jxy Jxz Jyz))] i ids g hn (hi i rfl)
    refine ⟨{ g with nodes := ns }, ?_, hids⟩
    have ha : (g.nodes.any fun n => decide (n.id = int i)) = true := by
      have := hi i rfl
      rw [← hn] at this
      obtain ⟨n, hn1, hn2⟩ := List.mem_map.1 this
      exact List.any_eq_true.2 ⟨n, hn1, by simpa using hn2⟩
    unfold mass
    simp only [ha, if_true]
    rw [hns]

theorem boundary_total (int : V → Int) (key : String) (conv : List V → List V) (ids : List Int) (g : Graph V) (hn : g.nodes.map Node.id = ids) (r : List V)
    (hr : ∃ i l, r = i :: l ∧ int i ∈ ids) : ∃ g', boundary int key conv g r = .ok g' ∧ g'.nodes.map Node.id = ids := by
  obtain ⟨i, l, rfl, hi⟩ := hr
  obtain ⟨ns, hns, hids⟩ := set_total int [(key, .list (conv l))] i ids g hn hi
  exact ⟨{ g with nodes := ns }, by rw [boundary, hns], hids⟩

theorem entry_append {A : Type} (a b : List (String × A)) (k : String) : entry (a ++ b) k = (entry a k).or (entry b k) := by
  rw [entry, entry, entry, List.find?_append]
  cases a.find? fun x => x.1 == k <;> rfl

theorem entry_fold (k : String) : ∀ (kvs d : List (String × Val V)), entry (kvs.foldl (fun d kv => setKey d kv.1 kv.2) d) k = (entry kvs.reverse k).or (entry d k)
  | [], d => rfl
  | x :: kvs, d => by
    rw [List.foldl_cons, entry_fold k kvs, entry_setKey, List.reverse_cons, entry_append]
    cases entry kvs.reverse k with
    | some v => rfl
    | none =>
      by_cases hk : k = x.1
      · subst hk; simp [entry]
      · have : (x.1 == k) = false := by simpa using Ne.symm hk
        simp [entry, hk, this]

theorem setAt_entries (g : Graph V) (kvs : List (String × Val V)) (i : Int) (ns' : List (Node V)) (h : setAt kvs i g.nodes = .ok ns') (j : Int) (k : String) :
    nodeData { g with nodes := ns' } j k = if j = i then (entry kvs.reverse k).or (nodeData g j k) else nodeData g j k := by
  obtain ⟨_, h2⟩ := setAt_ok _ _ _ _ h
  simp only [nodeData, h2 j]
  by_cases hj : j = i
  · subst hj
    have := setAt_found _ _ _ _ h
    cases hf : g.nodes.find? fun n => decide (n.id = j) with
    | none => rw [hf] at this; cases this
    | some n => simp only [Option.map_some, if_true, Option.bind_some, setData, entry_fold]
  · rw [if_neg hj]
    cases g.nodes.find? fun n => decide (n.id = j) with
    | none => rfl
    | some n => simp [hj]

/-- the sets of a HydroDyn file -/
def HSets (int : V → Int) (hd : HydroDyn V) (sets : List (String × List (Property V))) : Prop :=
  ∃ ss as cs, optSet "Section" (propOf int ["D", "t"]) hd.sections = .ok ss ∧ optSet "AxCoefs" (propOf int ["JAxCd", "JAxCa", "JAxCp"]) hd.axial = .ok as ∧
    each simpleProp hd.simple.zipIdx = .ok cs ∧ sets = ss ++ as ++ [("SimpleCoefs", cs)]

theorem getProp_found (g : Graph V) (set : String) (ps : List (Property V)) (i : Int) (h : g.sets.find? (fun x => x.1 == set) = some (set, ps)) :
    (∀ p, getProp g set i = .ok p → ps.find? (fun p => decide (p.id = i)) = some p) ∧ ((ps.find? fun p => decide (p.id = i)).isSome → ∃ p, getProp g set i = .ok p) := by
  rw [getProp, h]
  cases h : ps.find? fun p => decide (p.id = i) with
  | none => simp [h]
  | some p => simp [h]

theorem getProp_none (g : Graph V) (set : String) (i : Int) (h : g.sets.find? (fun x => x.1 == set) = none) (p : Property V) : getProp g set i ≠ .ok p := by
  rw [getProp, h]
  intro h
  cases h

theorem section_ok (int : V → Int) (hd : HydroDyn V) (g : Graph V) (hs : HSets int hd g.sets) (i : Int) :
    (∀ p, getProp g "Section" i = .ok p → ∃ rows r, hd.sections = some rows ∧ firstRow int rows i = some r ∧ PropIs int ["D", "t"] r p) ∧
    ((firstRow int (hd.sections.getD []) i).isSome → ∃ p, getProp g "Section" i = .ok p) := by
  obtain ⟨ss, as, cs, hss, has, _, hsets⟩ := hs
  rcases optSet_cases _ _ _ _ hss with ⟨ho, rfl⟩ | ⟨rows, ps, ho, rfl, hps⟩
  · have hf : g.sets.find? (fun x => x.1 == "Section") = none := by
      rcases optSet_cases _ _ _ _ has with ⟨_, rfl⟩ | ⟨_, _, _, rfl, _⟩ <;> (rw [hsets]; rfl)
    refine ⟨fun p hp => absurd hp (getProp_none g _ i hf p), fun h => ?_⟩
    rw [ho] at h
    cases h
  · have hf : g.sets.find? (fun x => x.1 == "Section") = some ("Section", ps) := by rw [hsets]; rfl
    obtain ⟨k1, k2⟩ := getProp_found g _ ps i hf
    obtain ⟨f1, f2⟩ := find_prop int _ (fun r p h => (propOf_ok int _ r p h).1) i _ _ hps
    refine ⟨fun p hp => ?_, fun h => k2 (f2 ?_)⟩
    · obtain ⟨r, hr1, hr2⟩ := f1 p (k1 p hp)
      exact ⟨rows, r, ho, hr1, propOf_ok int _ r p hr2⟩
    · rw [ho] at h
      exact h

theorem axial_ok (int : V → Int) (hd : HydroDyn V) (g : Graph V) (hs : HSets int hd g.sets) (i : Int) :
    (∀ p, getProp g "AxCoefs" i = .ok p → ∃ r, firstRow int (hd.axial.getD []) i = some r ∧ propOf int ["JAxCd", "JAxCa", "JAxCp"] r = .ok p) ∧
    ((firstRow int (hd.axial.getD []) i).isSome → ∃ p, getProp g "AxCoefs" i = .ok p) := by
  obtain ⟨ss, as, cs, hss, has, _, hsets⟩ := hs
  rcases optSet_cases _ _ _ _ has with ⟨ho, rfl⟩ | ⟨rows, ps, ho, rfl, hps⟩
  · have hf : g.sets.find? (fun x => x.1 == "AxCoefs") = none := by
      rcases optSet_cases _ _ _ _ hss with ⟨_, rfl⟩ | ⟨_, _, _, rfl, _⟩ <;> (rw [hsets]; rfl)
    refine ⟨fun p hp => absurd hp (getProp_none g _ i hf p), fun h => ?_⟩
    rw [ho] at h
    cases h
  · have hf : g.sets.find? (fun x => x.1 == "AxCoefs") = some ("AxCoefs", ps) := by
      rcases optSet_cases _ _ _ _ hss with ⟨_, rfl⟩ | ⟨_, _, _, rfl, _⟩ <;> (rw [hsets]; rfl)
    obtain ⟨k1, k2⟩ := getProp_found g _ ps i hf
    obtain ⟨f1, f2⟩ := find_prop int _ (fun r p h => (propOf_ok int _ r p h).1) i _ _ hps
    refine ⟨fun p hp => ?_, fun h => k2 (f2 ?_)⟩
    · rw [ho]
      exact f1 p (k1 p hp)
    · rw [ho] at h
      exact h

/-- the entries of the first row of the simple coefficients -/
def simpleKvs (hd : HydroDyn V) : List (String × Val V) :=
  match hd.simple with
  | [] => []
  | r :: _ => ((coefNames r.length).zip r).map fun kv => (kv.1, .num kv.2)

theorem simpleProp_ok (x : List V × Nat) (p : Property V) (h : simpleProp x = .ok p) : p = ⟨(x.2 : Int) + 1, (coefNames x.1.length).zip x.1⟩ := by
  rw [simpleProp] at h
  split at h
  · next hl =>
    obtain rfl := Except.ok.inj h
    rw [coefNames, if_pos hl]
    rfl
  · next hl =>
    split at h
    · obtain rfl := Except.ok.inj h
      rw [coefNames, if_neg hl]
      rfl
    · cases h

theorem simple_ok (int : V → Int) (hd : HydroDyn V) (g : Graph V) (hs : HSets int hd g.sets) :
    (∀ p, getProp g "SimpleCoefs" 1 = .ok p → p.data.map (fun kv => (kv.1, Val.num kv.2)) = simpleKvs hd) ∧ (hd.simple ≠ [] → ∃ p, getProp g "SimpleCoefs" 1 = .ok p) := by
  obtain ⟨ss, as, cs, hss, has, hcs, hsets⟩ := hs
  have hf : g.sets.find? (fun x => x.1 == "SimpleCoefs") = some ("SimpleCoefs", cs) := by
    rcases optSet_cases _ _ _ _ hss with ⟨_, rfl⟩ | ⟨_, _, _, rfl, _⟩ <;> rcases optSet_cases _ _ _ _ has with ⟨_, rfl⟩ | ⟨_, _, _, rfl, _⟩ <;> (rw [hsets]; rfl)
  obtain ⟨k1, k2⟩ := getProp_found g _ cs 1 hf
  have hcs := (each_ok _ _ _).1 hcs
  cases hsim : hd.simple with
  | nil =>
    rw [hsim] at hcs
    cases hcs
    refine ⟨fun p hp => ?_, fun h => absurd rfl h⟩
    cases k1 p hp
  | cons r rows =>
    rw [hsim, List.zipIdx_cons] at hcs
    cases hcs with
    | @cons _ c _ cs' hc hrest =>
      have e := simpleProp_ok _ _ hc
      have hid : c.id = 1 := by rw [e]; rfl
      refine ⟨fun p hp => ?_, fun _ => k2 ?_⟩
      · have := k1 p hp
        rw [List.find?_cons, hid] at this
        obtain rfl := Option.some.inj this
        rw [simpleKvs, hsim, e]
      · rw [List.find?_cons, hid]
        rfl

/-- a joint of a HydroDyn file and its node -/
def HJoint (int : V → Int) (hd : HydroDyn V) (r : List V) (n : Node V) : Prop :=
  ∃ i x y z a rest ax c d e rest', r = i :: x :: y :: z :: a :: rest ∧ firstRow int (hd.axial.getD []) (int a) = some (ax :: c :: d :: e :: rest') ∧
    n = ⟨int i, x, y, z, [("JAxCd", .num c), ("JAxCa", .num d), ("JAxCp", .num e)]⟩

theorem hjoint_ok (int : V → Int) (hd : HydroDyn V) (g g' : Graph V) (hs : HSets int hd g.sets) (r : List V) (h : hjoint int g r = .ok g') :
    ∃ n, HJoint int hd r n ∧ g' = { g with nodes := g.nodes ++ [n] } := by
  match r, h with
  | i :: x :: y :: z :: a :: rest, h =>
    rw [hjoint] at h
    split at h
    · cases h
    next p hp =>
    obtain rfl := Except.ok.inj h
    obtain ⟨row, hrow, hpo⟩ := (axial_ok int hd g hs (int a)).1 p hp
    match row, hpo with
    | ax :: c :: d :: e :: rest', hpo =>
      rw [propOf, if_neg (by simp)] at hpo
      obtain rfl := Except.ok.inj hpo
      exact ⟨_, ⟨i, x, y, z, a, rest, ax, c, d, e, rest', rfl, hrow, rfl⟩, rfl⟩
    | [], hpo => cases hpo
    | [_], hpo => cases hpo
    | [_, _], hpo => cases hpo
    | [_, _, _], hpo => cases hpo
  | [], h => cases h
  | [_], h => cases h
  | [_, _], h => cases h
  | [_, _, _], h => cases h
  | [_, _, _, _], h => cases h

theorem hjoints_ok (int : V → Int) (hd : HydroDyn V) : ∀ (rows : List (List V)) (g g' : Graph V), HSets int hd g.sets → fold (hjoint int) g rows = .ok g' →
    ∃ ns, List.Forall₂ (HJoint int hd) rows ns ∧ g' = { g with nodes := g.nodes ++ ns }
  | [], g, g', _, h => by
    rw [fold] at h
    obtain rfl := Except.ok.inj h
    exact ⟨[], .nil, by simp⟩
  | r :: rows, g, g', hs, h => by
    rw [fold] at h
    split at h
    · cases h
    next g1 h1 =>
    obtain ⟨n, hn, rfl⟩ := hjoint_ok int hd g g1 hs r h1
    obtain ⟨ns, hns, rfl⟩ := hjoints_ok int hd rows { g with nodes := g.nodes ++ [n] } g' hs h
    exact ⟨n :: ns, .cons hn hns, by simp⟩

theorem hjoints_spec (int : V → Int) (hd : HydroDyn V) : ∀ (rows : List (List V)) (ns : List (Node V)), List.Forall₂ (HJoint int hd) rows ns →
    List.Forall₂ (JointIs int) rows (ns.map fun n => (n.id, n.x, n.y, n.z)) ∧ ns.map Node.id = jointIDs int rows ∧
    ∀ i, (ns.find? (fun n => decide (n.id = i)) = none ∧ firstRow int rows i = none) ∨
      ∃ n r, ns.find? (fun n => decide (n.id = i)) = some n ∧ firstRow int rows i = some r ∧ HJoint int hd r n
  | [], [], _ => ⟨.nil, rfl, fun _ => .inl ⟨rfl, rfl⟩⟩
  | r :: rows, n :: ns, .cons h hr => by
    obtain ⟨a1, a2, a3⟩ := hjoints_spec int hd rows ns hr
    have h0 := h
    obtain ⟨i, x, y, z, a, rest, ax, c, d, e, rest', rfl, hax, rfl⟩ := h
    refine ⟨.cons ⟨i, x, y, z, _, rfl, rfl⟩ a1, ?_, fun j => ?_⟩
    · rw [List.map_cons, a2]
      rfl
    · simp only [firstRow, List.find?_cons, List.head?_cons, Option.map_some]
      by_cases hi : int i = j
      · simp only [hi, decide_true]
        exact .inr ⟨_, _, rfl, rfl, hi ▸ h0⟩
      · have : ¬ some (int i) = some j := fun h => hi (Option.some.inj h)
        simp only [hi, this, decide_false]
        exact a3 j

theorem entry_kvs (r : List V) (hl : r.length = 12 ∨ r.length = 10) (j : Nat) (name : String) (h : (coefNames r.length)[j]? = some name) :
    entry (((coefNames r.length).zip r).map fun kv => (kv.1, Val.num kv.2)).reverse name = r[j]?.map .num := by
  have hj : j < 12 := by
    by_contra hj
    rw [List.getElem?_eq_none] at h
    · cases h
    · rw [coefNames]
      split <;> (simp only [List.length_cons, List.length_nil]; omega)
  rcases hl with hl | hl
  · match r, hl with
    | [a0, a1, a2, a3, a4, a5, a6, a7, a8, a9, a10, a11], _ =>
      match j, hj with
      | 0, _ => obtain rfl := Option.some.inj h; rfl
      | 1, _ => obtain rfl := Option.some.inj h; rfl
      | 2, _ => obtain rfl := Option.some.inj h; rfl
      | 3, _ => obtain rfl := Option.some.inj h; rfl
      | 4, _ => obtain rfl := Option.some.inj h; rfl
      | 5, _ => obtain rfl := Option.some.inj h; rfl
      | 6, _ => obtain rfl := Option.some.inj h; rfl
      | 7, _ => obtain rfl := Option.some.inj h; rfl
      | 8, _ => obtain rfl := Option.some.inj h; rfl
      | 9, _ => obtain rfl := Option.some.inj h; rfl
      | 10, _ => obtain rfl := Option.some.inj h; rfl
      | 11, _ => obtain rfl := Option.some.inj h; rfl
  · match r, hl with
    | [a0, a1, a2, a3, a4, a5, a6, a7, a8, a9], _ =>
      match j, hj with
      | 0, _ => obtain rfl := Option.some.inj h; rfl
      | 1, _ => obtain rfl := Option.some.inj h; rfl
      | 2, _ => obtain rfl := Option.some.inj h; rfl
      | 3, _ => obtain rfl := Option.some.inj h; rfl
      | 4, _ => obtain rfl := Option.some.inj h; rfl
      | 5, _ => obtain rfl := Option.some.inj h; rfl
      | 6, _ => obtain rfl := Option.some.inj h; rfl
      | 7, _ => obtain rfl := Option.some.inj h; rfl
      | 8, _ => obtain rfl := Option.some.inj h; rfl
      | 9, _ => obtain rfl := Option.some.inj h; rfl
      | 10, _ => cases h
      | 11, _ => cases h

theorem coefNames_other (n : Nat) (name : String) (h : name ∈ coefNames n) : name ≠ "JAxCd" ∧ name ≠ "JAxCa" ∧ name ≠ "JAxCp" := by
  have h12 : ∀ name ∈ coefNames 12, name ≠ "JAxCd" ∧ name ≠ "JAxCa" ∧ name ≠ "JAxCp" := by decide
  have h10 : ∀ name ∈ coefNames 10, name ≠ "JAxCd" ∧ name ≠ "JAxCa" ∧ name ≠ "JAxCp" := by decide
  by_cases hn : n = 12
  · subst hn; exact h12 name h
  · have : coefNames n = coefNames 10 := by rw [coefNames, if_neg hn]; rfl
    rw [this] at h
    exact h10 name h

theorem entry_other (hd : HydroDyn V) (k : String) (h : ∀ n, k ∉ coefNames n) : entry (simpleKvs hd).reverse k = none := by
  rw [entry, List.find?_eq_none.2, Option.map_none]
  intro x hx hk
  rw [List.mem_reverse, simpleKvs] at hx
  split at hx
  · cases hx
  next r _ _ =>
  obtain ⟨y, hy, rfl⟩ := List.mem_map.1 hx
  exact h r.length ((beq_iff_eq.1 hk) ▸ (List.of_mem_zip hy).1)

theorem simple_length (int : V → Int) (hd : HydroDyn V) (sets : List (String × List (Property V))) (hs : HSets int hd sets) (r : List V) (hr : r ∈ hd.simple.head?) : r.length = 12 ∨ r.length = 10 := by
  obtain ⟨_, _, cs, _, _, hcs, _⟩ := hs
  have hcs := (each_ok _ _ _).1 hcs
  cases hsim : hd.simple with
  | nil => rw [hsim] at hr; cases hr
  | cons r' rows =>
    rw [hsim] at hr
    obtain rfl := Option.some.inj hr
    rw [hsim, List.zipIdx_cons] at hcs
    cases hcs with
    | cons hc _ =>
      rw [simpleProp] at hc
      split at hc
      · next hl => exact .inl hl
      · split at hc
        · next hl => exact .inr hl
        · cases hc

theorem setBoth_ok (kvs : List (String × Val V)) : ∀ (ids : List Int) (g g' : Graph V), (∀ p, getProp g "SimpleCoefs" 1 = .ok p → p.data.map (fun kv => (kv.1, Val.num kv.2)) = kvs) →
    setBoth g ids = .ok g' → g'.sets = g.sets ∧ g'.elems = g.elems ∧ places g' = places g ∧
    ∀ j k, nodeData g' j k = if j ∈ ids then (entry kvs.reverse k).or (nodeData g j k) else nodeData g j k
  | [], g, g', _, h => by
    rw [setBoth, fold] at h
    obtain rfl := Except.ok.inj h
    exact ⟨rfl, rfl, rfl, fun _ _ => by simp⟩
  | i :: ids, g, g', hk, h => by
    rw [setBoth, fold] at h
    split at h
    · cases h
    next g1 h1 =>
    split at h1
    · cases h1
    next p hp =>
    rw [hk p hp] at h1
    split at h1
    · cases h1
    next ns hns =>
    obtain rfl := Except.ok.inj h1
    obtain ⟨a1, a2, a3, a4⟩ := setBoth_ok kvs ids { g with nodes := ns } g' hk h
    refine ⟨a1, a2, a3.trans (setAt_ok _ _ _ _ hns).1, fun j k => ?_⟩
    rw [a4 j k, setAt_entries g kvs i ns hns]
    by_cases hj : j = i
    · subst hj
      by_cases hm : j ∈ ids
      · simp only [hm, if_true, List.mem_cons, true_or]
        cases entry kvs.reverse k <;> rfl
      · simp [hm]
    · simp [hj]

theorem coefOf_cases (t : Int) (c : String) (h : coefOf t = .ok c) : ∀ s, coefName t = some s → c = s := by
  rw [coefOf] at h
  intro s hs
  unfold coefName at hs
  split at hs
  · exact (Except.ok.inj h).symm.trans (Option.some.inj hs)
  · exact (Except.ok.inj h).symm.trans (Option.some.inj hs)
  · exact (Except.ok.inj h).symm.trans (Option.some.inj hs)
  · cases hs

theorem hmember_ok (int : V → Int) (hd : HydroDyn V) (g g' : Graph V) (hs : HSets int hd g.sets) (hn : g.nodes.map Node.id = jointIDs int hd.joints) (m : HMember)
    (h : hmember g m = .ok g') : g'.sets = g.sets ∧ places g' = places g ∧ (∃ e, HMemberIs int hd m e ∧ g'.elems = g.elems ++ [e]) ∧
      ∀ j k, nodeData g' j k = if m.coef = 1 ∧ j ∈ m.joints then (entry (simpleKvs hd).reverse k).or (nodeData g j k) else nodeData g j k := by
  rw [hmember] at h
  split at h
  · cases h
  split at h
  · cases h
  next c hc =>
  split at h
  · cases h
  next g1 h1 =>
  obtain ⟨hnodes, ps, hps, rfl⟩ := addElement_step _ _ _ _ _ _ _ h1
  have he : HMemberIs int hd m ⟨m.id, m.joints, "Section", m.props, ps, c⟩ := by
    refine ⟨rfl, rfl, fun i hi => hn ▸ hnodes i hi, coefOf_cases _ _ hc, rfl, rfl, ?_⟩
    exact List.Forall₂.imp (fun i p hp => (section_ok int hd g hs i).1 p hp) hps
  split at h
  · next h1c =>
    obtain ⟨a1, a2, a3, a4⟩ := setBoth_ok (simpleKvs hd) m.joints _ g' (simple_ok int hd _ (by exact hs)).1 h
    refine ⟨a1, a3, ⟨_, he, a2⟩, fun j k => ?_⟩
    rw [a4 j k]
    simp only [h1c, true_and]
    rfl
  · next h1c =>
    obtain rfl := Except.ok.inj h
    exact ⟨rfl, rfl, ⟨_, he, rfl⟩, fun j k => by simp only [h1c, false_and, if_false]; rfl⟩

theorem hmembers_ok (int : V → Int) (hd : HydroDyn V) : ∀ (ms : List HMember) (g g' : Graph V), HSets int hd g.sets → g.nodes.map Node.id = jointIDs int hd.joints →
    fold hmember g ms = .ok g' → places g' = places g ∧ (∃ es, List.Forall₂ (HMemberIs int hd) ms es ∧ g'.elems = g.elems ++ es) ∧
      ∀ j k, ((∃ m ∈ ms, m.coef = 1 ∧ j ∈ m.joints) → nodeData g' j k = (entry (simpleKvs hd).reverse k).or (nodeData g j k)) ∧
        ((¬ ∃ m ∈ ms, m.coef = 1 ∧ j ∈ m.joints) → nodeData g' j k = nodeData g j k)
  | [], g, g', _, _, h => by
    rw [fold] at h
    obtain rfl := Except.ok.inj h
    refine ⟨rfl, ⟨[], .nil, by simp⟩, fun j k => ⟨?_, fun _ => rfl⟩⟩
    rintro ⟨m, hm, _⟩
    cases hm
  | m :: ms, g, g', hs, hn, h => by
    rw [fold] at h
    split at h
    · cases h
    next g1 h1 =>
    obtain ⟨a1, a2, ⟨e, he, a3⟩, a4⟩ := hmember_ok int hd g g1 hs hn m h1
    obtain ⟨b2, ⟨es, hes, b3⟩, b4⟩ := hmembers_ok int hd ms g1 g' (a1 ▸ hs) (by rw [← places_ids, a2, places_ids, hn]) h
    refine ⟨b2.trans a2, ⟨e :: es, .cons he hes, by rw [b3, a3]; simp⟩, fun j k => ?_⟩
    have a4 := a4 j k
    obtain ⟨c1, c2⟩ := b4 j k
    by_cases hm : m.coef = 1 ∧ j ∈ m.joints
    · rw [if_pos hm] at a4
      refine ⟨fun _ => ?_, fun hno => absurd ⟨m, List.mem_cons_self .., hm⟩ hno⟩
      by_cases hms : ∃ m ∈ ms, m.coef = 1 ∧ j ∈ m.joints
      · rw [c1 hms, a4]
        cases entry (simpleKvs hd).reverse k <;> rfl
      · rw [c2 hms, a4]
    · rw [if_neg hm] at a4
      constructor
      · rintro ⟨m', hm', h'⟩
        rcases List.mem_cons.1 hm' with rfl | hm'
        · exact absurd h' hm
        · rw [c1 ⟨m', hm', h'⟩, a4]
      · intro hno
        rw [c2 (fun ⟨m', hm', h'⟩ => hno ⟨m', List.mem_cons_of_mem _ hm', h'⟩), a4]

theorem miscSet_ok (name : String) (n : Nat) (bad : Err) (o : Option (List (List V))) (l : List String) (h : miscSet name n bad o = .ok l) : o = none ∨ o = some [] := by
  unfold miscSet at h
  split at h
  · exact .inl rfl
  · exact .inr rfl
  · split at h <;> cases h

theorem hydrodyn_ok (int : V → Int) (hd : HydroDyn V) (g : Graph V) (h : hydrodyn int hd = .ok g) :
    (∀ o ∈ [hd.depth, hd.memberCoefs, hd.fill, hd.growth], o = none ∨ o = some []) ∧
    ∃ sets misc g0, HSets int hd sets ∧ fold (hjoint int) { sets := sets, misc := misc } hd.joints = .ok g0 ∧ fold hmember g0 hd.members = .ok g := by
  unfold hydrodyn at h
  split at h
  · cases h
  next ss hss =>
  split at h
  · cases h
  next as has =>
  split at h
  · cases h
  next cs hcs =>
  split at h
  · cases h
  next m1 hm1 =>
  split at h
  · cases h
  next m2 hm2 =>
  split at h
  · cases h
  next m3 hm3 =>
  split at h
  · cases h
  next m4 hm4 =>
  split at h
  · cases h
  next g0 hg0 =>
  refine ⟨?_, _, _, g0, ⟨ss, as, cs, hss, has, hcs, rfl⟩, hg0, h⟩
  intro o ho
  simp only [List.mem_cons, List.not_mem_nil, or_false] at ho
  rcases ho with rfl | rfl | rfl | rfl
  · exact miscSet_ok _ _ _ _ _ hm1
  · exact miscSet_ok _ _ _ _ _ hm2
  · exact miscSet_ok _ _ _ _ _ hm3
  · exact miscSet_ok _ _ _ _ _ hm4

theorem hjoint_total (int : V → Int) (hd : HydroDyn V) (g : Graph V) (hs : HSets int hd g.sets) (r : List V)
    (h : ∃ i x y z a rest, r = i :: x :: y :: z :: a :: rest ∧ (firstRow int (hd.axial.getD []) (int a)).isSome) : ∃ g', hjoint int g r = .ok g' := by
  obtain ⟨i, x, y, z, a, rest, rfl, ha⟩ := h
  obtain ⟨p, hp⟩ := (axial_ok int hd g hs (int a)).2 ha
  rw [hjoint, hp]
  exact ⟨_, rfl⟩

theorem setBoth_total (int : V → Int) (hd : HydroDyn V) (h : hd.simple ≠ []) : ∀ (ids : List Int) (g : Graph V), HSets int hd g.sets → (∀ i ∈ ids, i ∈ g.nodes.map Node.id) →
    ∃ g', setBoth g ids = .ok g'
  | [], g, _, _ => ⟨g, rfl⟩
  | i :: ids, g, hs, hi => by
    obtain ⟨p, hp⟩ := (simple_ok int hd g hs).2 h
    obtain ⟨ns, hns⟩ := setAt_total (p.data.map fun kv => (kv.1, Val.num kv.2)) i g.nodes (hi i (List.mem_cons_self ..))
    have : ns.map Node.id = g.nodes.map Node.id := by
      have := congrArg (List.map Prod.fst) (setAt_ok _ _ _ _ hns).1
      rw [List.map_map, List.map_map] at this
      exact this
    obtain ⟨g', hg'⟩ := setBoth_total int hd h ids { g with nodes := ns } hs (fun j hj => this ▸ hi j (List.mem_cons_of_mem _ hj))
    refine ⟨g', ?_⟩
    rw [setBoth, fold, hp]
    simp only [hns]
    exact hg'

theorem coefName_of (t : Int) (c : String) (h : coefName t = some c) : coefOf t = .ok c := by
  unfold coefName at h
  split at h
  · obtain rfl := Option.some.inj h; rfl
  · obtain rfl := Option.some.inj h; rfl
  · obtain rfl := Option.some.inj h; rfl
  · cases h

theorem hmember_total (int : V → Int) (hd : HydroDyn V) (g : Graph V) (hs : HSets int hd g.sets) (hn : g.nodes.map Node.id = jointIDs int hd.joints) (m : HMember)
    (h : m.pot ≠ [] ∧ (coefName m.coef).isSome ∧ (∀ i ∈ m.joints, i ∈ jointIDs int hd.joints) ∧ (∀ p ∈ m.props, (firstRow int (hd.sections.getD []) p).isSome) ∧
      (m.coef = 1 → hd.simple ≠ [])) : ∃ g', hmember g m = .ok g' := by
  obtain ⟨h1, h2, h3, h4, h5⟩ := h
  obtain ⟨c, hc⟩ := Option.isSome_iff_exists.1 h2
  obtain ⟨ps, hps⟩ := addElement_total g m.id m.joints "Section" m.props c (fun i hi => hn ▸ h3 i hi) (fun i hi => (section_ok int hd g hs i).2 (h4 i hi))
  rw [hmember, if_neg h1, coefName_of _ _ hc]
  simp only [hps]
  by_cases hm : m.coef = 1
  · rw [if_pos hm]
    exact setBoth_total int hd (h5 hm) _ _ hs (fun i hi => by exact hn ▸ h3 i hi)
  · rw [if_neg hm]
    exact ⟨_, rfl⟩

theorem sumNode_ok (int : V → Int) (dofs : List (Int × Int)) (r : List V) (n : SNode V) (h : sumNode int dofs r = .ok n) : SumNodeIs int dofs r n := by
  match r, h with
  | i :: x :: y :: z :: t :: rest, h =>
    rw [sumNode] at h
    obtain rfl := Except.ok.inj h
    refine ⟨rfl, rfl, rfl, rfl, rfl, fun d => ?_⟩
    simp only [List.mem_map, List.mem_filter, decide_eq_true_eq]
    constructor
    · rintro ⟨⟨a, b⟩, ⟨h1, h2⟩, h3⟩
      simp only at h2 h3
      subst h2 h3
      exact h1
    · intro h1
      exact ⟨_, ⟨h1, rfl⟩, rfl⟩
  | [], h => cases h
  | [_], h => cases h
  | [_, _], h => cases h
  | [_, _, _], h => cases h
  | [_, _, _, _], h => cases h

theorem sumElem_ok (int : V → Int) (ids : List Int) (r : List V) (e : SElem V) (h : sumElem int ids r = .ok e) : SumElemIs int r e ∧ ∀ i ∈ e.nodeIDs, i ∈ ids := by
  unfold sumElem at h
  split at h
  · split at h
    · cases h
    split at h
    · next hab =>
      obtain rfl := Except.ok.inj h
      refine ⟨⟨rfl, ⟨_, _, rfl, rfl, rfl⟩, rfl, rfl, rfl⟩, ?_⟩
      intro j hj
      rcases List.mem_cons.1 hj with rfl | hj
      · exact hab.1
      · rw [List.mem_singleton.1 hj]; exact hab.2
    · cases h
  · cases h

end

end Verif.FastGraph
