import Verif.Lemmas.FastGraph
import Mathlib.Data.List.Forall2
import Mathlib.Tactic.Ring
/-!
# Graphs of SubDyn and HydroDyn files

Properties C206 to C209.
-/
namespace Verif.FastGraph
open Verif.Py

section
variable {V : Type}

/-- **C206.** The graph of a SubDyn file has a node for each joint, at its place, and an element for each member, between its joints and with the properties of its
two ends. -/
theorem C206 [Ring V] (int : V → Int) (round : V → V) (sd : SubDyn V) (g : Graph V) (h : subdyn int round sd = .ok g) :
    List.Forall₂ (JointIs int) sd.joints (g.nodes.map fun n => (n.id, n.x, n.y, n.z)) ∧ List.Forall₂ (MemberIs int sd) sd.members g.elems := by
  obtain ⟨sets, ns, g1, g2, g3, hs, hns, h1, h2, h3, h4⟩ := subdyn_ok int round sd g h
  obtain ⟨a1, a2, _⟩ := joints_ok int 1 _ _ hns
  obtain ⟨es, hes, rfl⟩ := members_ok int sd sd.members _ _ (by exact hs) (by exact a2) h1
  obtain ⟨b1, b2, _, _⟩ := fold_set int _ _ (fun g r g' h => mass_step int g r g' h) _ _ _ h2
  obtain ⟨c1, c2, _, _⟩ := fold_set int _ _ (fun g r g' h => boundary_step int _ _ g r g' h) _ _ _ h3
  obtain ⟨d1, d2, _, _⟩ := fold_set int _ _ (fun g r g' h => boundary_step int _ _ g r g' h) _ _ _ h4
  constructor
  · have : places g = places _ := d1.trans (c1.trans b1)
    rw [places] at this
    rw [this]
    exact a1
  · rw [d2, c2, b2]
    exact hes

/-- **C206**, data of the nodes: the type is that of the joint (1 if it is not given); the conditions at the interface and at the base and the added mass are those of the
last row with the ID. -/
theorem C206_data [Ring V] (int : V → Int) (round : V → V) (sd : SubDyn V) (g : Graph V) (h : subdyn int round sd = .ok g) (i : Int) :
    nodeData g i "Type" = (firstRow int sd.joints i).map (fun r => .num (r[4]?.getD 1)) ∧
    nodeData g i "IBC" = (lastRow int sd.interface i).map (fun r => .list r.tail) ∧
    nodeData g i "RBC" = (lastRow int sd.base i).map (fun r => .list (r.tail.mapIdx fun j v => if j < 6 then round v else v)) ∧
    nodeData g i "addedMassMatrix" = (lastRow int sd.masses i).map rowMatrix := by
  obtain ⟨sets, ns, g1, g2, g3, hs, hns, h1, h2, h3, h4⟩ := subdyn_ok int round sd g h
  obtain ⟨a1, a2, a3⟩ := joints_ok int 1 _ _ hns
  obtain ⟨es, hes, rfl⟩ := members_ok int sd sd.members _ _ (by exact hs) (by exact a2) h1
  obtain ⟨_, _, b3, b4⟩ := fold_set int _ _ (fun g r g' h => mass_step int g r g' h) _ _ _ h2
  obtain ⟨_, _, c3, c4⟩ := fold_set int _ _ (fun g r g' h => boundary_step int _ _ g r g' h) _ _ _ h3
  obtain ⟨_, _, d3, d4⟩ := fold_set int _ _ (fun g r g' h => boundary_step int _ _ g r g' h) _ _ _ h4
  have base : ∀ k, nodeData { sets := sets, nodes := ns, elems := [] ++ es : Graph V } i k = (firstRow int sd.joints i).bind fun r => entry [("Type", .num ((r.drop 4).headD 1))] k := by
    intro k
    have := a3 i
    rw [nodeData]
    simp only
    cases hf : ns.find? (fun n => decide (n.id = i)) with
    | none =>
      rw [hf] at this
      cases hr : firstRow int sd.joints i with
      | none => rfl
      | some r => rw [hr] at this; cases this
    | some n =>
      rw [hf] at this
      cases hr : firstRow int sd.joints i with
      | none => rw [hr] at this; cases this
      | some r =>
        rw [hr] at this
        simp only [Option.map_some, Option.some.injEq] at this
        simp [this]
  refine ⟨?_, ?_, ?_, ?_⟩
  · rw [d3 i _ (by decide), c3 i _ (by decide), b3 i _ (by decide), base]
    cases firstRow int sd.joints i with
    | none => rfl
    | some r =>
      simp only [Option.bind_some, Option.map_some, entry]
      simp [List.headD_eq_head?_getD, List.head?_drop]
  · rw [d3 i _ (by decide), c4 i, b3 i _ (by decide), base]
    cases lastRow int sd.interface i with
    | none => cases firstRow int sd.joints i <;> rfl
    | some r => rfl
  · rw [d4 i, c3 i _ (by decide), b3 i _ (by decide), base]
    cases lastRow int sd.base i with
    | none => cases firstRow int sd.joints i <;> rfl
    | some r => simp [toInts_eq]
  · rw [d3 i _ (by decide), c3 i _ (by decide), b4 i, base]
    cases lastRow int sd.masses i with
    | none => cases firstRow int sd.joints i <;> rfl
    | some r => rfl

/-- **C206**, the other direction: tables that fit together give a graph. -/
theorem C206_total [Ring V] (int : V → Int) (round : V → V) (sd : SubDyn V) (h : Fits int sd) : ∃ g, subdyn int round sd = .ok g := by
  obtain ⟨bs, hb⟩ := each_total (propOf int ["E", "G", "rho", "D", "t"]) sd.beam fun r hr => propOf_total int _ r (h.beam r hr)
  obtain ⟨cs, hc⟩ := optSet_total "Cable" (cableProp int (-1)) sd.cable fun rows hrows r hr => cable_total int r (h.cable rows hrows r hr)
  obtain ⟨rs, hr⟩ := optSet_total "Rigid" (propOf int ["rho"]) sd.rigid fun rows hrows r hr => propOf_total int _ r (h.rigid rows hrows r hr)
  obtain ⟨ns, hns⟩ := each_total (joint int 1) sd.joints fun r hr => joint_total int 1 r (h.joints r hr)
  obtain ⟨_, a2, _⟩ := joints_ok int 1 _ _ ((each_ok _ _ _).1 hns)
  obtain ⟨g1, h1, s1, n1⟩ := fold_total member (fun g => Sets int sd g.sets ∧ g.nodes.map Node.id = jointIDs int sd.joints) (sd.members.map fun r => r.map int)
    { sets := ("Beam", bs) :: cs ++ rs, nodes := ns } (by
      intro a ha g ⟨hs, hn⟩
      obtain ⟨r, hr, rfl⟩ := List.mem_map.1 ha
      obtain ⟨g', hg'⟩ := member_total int sd g hs hn r (h.members r hr)
      obtain ⟨e, _, rfl⟩ := member_ok int sd g g' hs hn r hg'
      exact ⟨_, hg', hs, hn⟩) ⟨⟨bs, cs, rs, hb, hc, hr, rfl⟩, a2⟩
  obtain ⟨g2, h2, n2⟩ := fold_total (mass int) (fun g => g.nodes.map Node.id = jointIDs int sd.joints) sd.masses g1
    (fun r hr g hn => mass_total int _ g hn r (h.masses r hr).1 (h.masses r hr).2) n1
  obtain ⟨g3, h3, n3⟩ := fold_total (boundary int "IBC" id) (fun g => g.nodes.map Node.id = jointIDs int sd.joints) sd.interface g2
    (fun r hr g hn => boundary_total int _ _ _ g hn r (h.interface r hr)) n2
  obtain ⟨g4, h4, _⟩ := fold_total (boundary int "RBC" (toInts round)) (fun g => g.nodes.map Node.id = jointIDs int sd.joints) sd.base g3
    (fun r hr g hn => boundary_total int _ _ _ g hn r (h.base r hr)) n3
  exact ⟨g4, by rw [subdyn, hb, hc, hr, hns]; simp only [h1, h2, h3]; exact h4⟩

/-- **C207.** The added mass of a node is that of a rigid body with the given mass, centre and inertia about the centre: it is symmetric, and twice its kinetic energy when
the node moves with velocity `v` and turns with `w` is `m |v + w × r|² + wᵀ J w`. -/
theorem C207 [CommRing V] (int : V → Int) (round : V → V) (sd : SubDyn V) (g : Graph V) (h : subdyn int round sd = .ok g) (i m Jxx Jyy Jzz Jxy Jxz Jyz x y z : V)
    (hr : lastRow int sd.masses (int i) = some [i, m, Jxx, Jyy, Jzz, Jxy, Jxz, Jyz, x, y, z]) :
    ∃ M, nodeData g (int i) "addedMassMatrix" = some (.mat M) ∧
      (∀ a1 a2 a3 a4 a5 a6 b1 b2 b3 b4 b5 b6, bil M [a1, a2, a3, a4, a5, a6] [b1, b2, b3, b4, b5, b6] = bil M [b1, b2, b3, b4, b5, b6] [a1, a2, a3, a4, a5, a6]) ∧
      ∀ vx vy vz wx wy wz, bil M [vx, vy, vz, wx, wy, wz] [vx, vy, vz, wx, wy, wz] =
        m * ((vx + (wy * z - wz * y)) ^ 2 + (vy + (wz * x - wx * z)) ^ 2 + (vz + (wx * y - wy * x)) ^ 2) +
        (Jxx * wx ^ 2 + Jyy * wy ^ 2 + Jzz * wz ^ 2 + 2 * Jxy * wx * wy + 2 * Jxz * wx * wz + 2 * Jyz * wy * wz) := by
  refine ⟨massMatrix m x y z Jxx Jyy Jzz Jxy Jxz Jyz, ?_, ?_, ?_⟩
  · rw [(C206_data int round sd g h (int i)).2.2.2, hr]
    rfl
  · intros
    simp only [bil, massMatrix, List.zip_cons_cons, List.zip_nil_right, List.map_cons, List.map_nil, List.sum_cons, List.sum_nil]
    ring
  · intros
    simp only [bil, massMatrix, List.zip_cons_cons, List.zip_nil_right, List.map_cons, List.map_nil, List.sum_cons, List.sum_nil]
    ring

end

/-- two joints, a beam and a cable between them, a mass at the second, clamped at the first -/
def exSub : SubDyn Int where
  beam := [[1, 210, 80, 7850, 5, 1], [2, 200, 70, 7000, 6, 1]]
  cable := some [[1, 900, 30, 4]]
  rigid := none
  joints := [[1, 0, 0, -10], [2, 3, 4, 5, 2]]
  members := [[1, 1, 2, 1, 2], [2, 2, 1, 1, 1, 2]]
  masses := [[2, 100, 7, 8, 9, 1, 2, 3, 1, 2, 3]]
  interface := [[2, 1, 1, 1, 1, 1, 1]]
  base := [[1, 1, 1, 1, 0, 0, 0]]

example : Fits id exSub := by
  refine ⟨by decide, ?_, ?_, by decide, ?_, ?_, ?_, ?_⟩
  · intro rows h
    obtain rfl := Option.some.inj h
    decide
  · intro rows h
    cases h
  · intro r hr
    rcases List.mem_cons.1 hr with rfl | hr
    · exact ⟨1, 1, 2, 1, 2, 1, "Beam", .inl ⟨rfl, rfl⟩, rfl, by decide, by decide, by decide, by decide⟩
    · obtain rfl := List.mem_singleton.1 hr
      exact ⟨2, 2, 1, 1, 1, 2, "Cable", .inr ⟨[], rfl⟩, rfl, by decide, by decide, by decide, by decide⟩
  · intro r hr
    obtain rfl := List.mem_singleton.1 hr
    refine ⟨rfl, ?_⟩
    intro i hi
    obtain rfl := Option.some.inj hi
    decide
  · intro r hr
    obtain rfl := List.mem_singleton.1 hr
    exact ⟨2, _, rfl, by decide⟩
  · intro r hr
    obtain rfl := List.mem_singleton.1 hr
    exact ⟨1, _, rfl, by decide⟩

example : (subdyn id id exSub).isOk = true ∧ lastRow id exSub.masses 2 = some [2, 100, 7, 8, 9, 1, 2, 3, 1, 2, 3] := by decide +kernel

section
variable {V : Type}

/-- **C208 fails**: a HydroDyn file with coefficients by depth or by member, filled members or marine growth gives no graph. -/
theorem C208_fails (int : V → Int) (hd : HydroDyn V) (rows : List (List V)) (h : some rows ∈ [hd.depth, hd.memberCoefs, hd.fill, hd.growth]) (hr : rows ≠ []) (g : Graph V) :
    hydrodyn int hd ≠ .ok g := by
  intro hg
  rcases (hydrodyn_ok int hd g hg).1 _ h with h | h
  · cases h
  · exact hr (Option.some.inj h)

/-- **C208, the part that holds**: files without these tables that fit together give a graph. -/
theorem C208_total_partial (int : V → Int) (hd : HydroDyn V) (h : HFits int hd) (hno : ∀ o ∈ [hd.depth, hd.memberCoefs, hd.fill, hd.growth], o = none) : ∃ g, hydrodyn int hd = .ok g := by
  obtain ⟨ss, hss⟩ := optSet_total "Section" (propOf int ["D", "t"]) hd.sections fun rows hrows r hr => propOf_total int _ r (h.sections rows hrows r hr)
  obtain ⟨as, has⟩ := optSet_total "AxCoefs" (propOf int ["JAxCd", "JAxCa", "JAxCp"]) hd.axial fun rows hrows r hr => propOf_total int _ r (h.axial rows hrows r hr)
  obtain ⟨cs, hcs⟩ := each_total (simpleProp (V := V)) hd.simple.zipIdx (by
    intro x hx
    have hm : x.1 ∈ hd.simple := (List.mem_zipIdx' hx).2 ▸ List.getElem_mem _
    rw [simpleProp]
    rcases h.simple _ hm with hl | hl
    · rw [if_pos hl]; exact ⟨_, rfl⟩
    · rw [if_neg (by omega), if_pos hl]; exact ⟨_, rfl⟩)
  have h1 : hd.depth = none := hno _ (by simp)
  have h2 : hd.memberCoefs = none := hno _ (by simp)
  have h3 : hd.fill = none := hno _ (by simp)
  have h4 : hd.growth = none := hno _ (by simp)
  have hset : HSets int hd (ss ++ as ++ [("SimpleCoefs", cs)]) := ⟨ss, as, cs, hss, has, hcs, rfl⟩
  obtain ⟨g0, hg0, hs0⟩ := fold_total (hjoint int) (fun g => HSets int hd g.sets) hd.joints { sets := ss ++ as ++ [("SimpleCoefs", cs)], misc := [] ++ [] ++ [] ++ [] } (by
    intro r hr g hs
    obtain ⟨g', hg'⟩ := hjoint_total int hd g hs r (h.joints r hr)
    obtain ⟨n, _, rfl⟩ := hjoint_ok int hd g g' hs r hg'
    exact ⟨_, hg', hs⟩) hset
  obtain ⟨ns, hns, rfl⟩ := hjoints_ok int hd hd.joints _ _ hset hg0
  obtain ⟨_, hids, _⟩ := hjoints_spec int hd _ _ hns
  obtain ⟨g, hg, _⟩ := fold_total hmember (fun g => HSets int hd g.sets ∧ g.nodes.map Node.id = jointIDs int hd.joints) hd.members _ (by
    intro m hm g hg
    obtain ⟨hs, hn⟩ := hg
    obtain ⟨g', hg'⟩ := hmember_total int hd g hs hn m (h.members m hm)
    obtain ⟨a1, a2, _, _⟩ := hmember_ok int hd g g' hs hn m hg'
    exact ⟨g', hg', a1 ▸ hs, by rw [← places_ids, a2, places_ids, hn]⟩) ⟨hs0, by simpa using hids⟩
  refine ⟨g, ?_⟩
  rw [hydrodyn, hss, has, hcs, h1, h2, h3, h4]
  simp only [miscSet, hg0]
  exact hg

/-- **C208, the part that holds**, nodes and elements of the graph. -/
theorem C208_partial (int : V → Int) (hd : HydroDyn V) (g : Graph V) (h : hydrodyn int hd = .ok g) :
    List.Forall₂ (JointIs int) hd.joints (g.nodes.map fun n => (n.id, n.x, n.y, n.z)) ∧ List.Forall₂ (HMemberIs int hd) hd.members g.elems := by
  obtain ⟨_, sets, misc, g0, hs, hg0, hg⟩ := hydrodyn_ok int hd g h
  obtain ⟨ns, hns, rfl⟩ := hjoints_ok int hd hd.joints _ _ (by exact hs) hg0
  obtain ⟨a1, a2, _⟩ := hjoints_spec int hd _ _ hns
  obtain ⟨b1, ⟨es, hes, b2⟩, _⟩ := hmembers_ok int hd hd.members _ _ (by exact hs) (by simpa using a2) hg
  constructor
  · rw [places] at b1
    rw [b1]
    simpa [places] using a1
  · rw [b2]
    simpa using hes

/-- **C208, the part that holds**, coefficients of the nodes: those of the axial coefficients of the joint, and the first row of the simple coefficients if a member with simple
coefficients ends there. -/
theorem C208_coefs_partial (int : V → Int) (hd : HydroDyn V) (g : Graph V) (h : hydrodyn int hd = .ok g) (i : Int) :
    nodeData g i "JAxCd" = ((axialRow int hd i).bind fun r => r[1]?).map .num ∧ nodeData g i "JAxCa" = ((axialRow int hd i).bind fun r => r[2]?).map .num ∧
    nodeData g i "JAxCp" = ((axialRow int hd i).bind fun r => r[3]?).map .num ∧
    (Simple hd i → ∀ r ∈ hd.simple.head?, ∀ (j : Nat) name, (coefNames r.length)[j]? = some name → nodeData g i name = r[j]?.map .num) ∧
    (¬ Simple hd i → ∀ n : Nat, ∀ name ∈ coefNames n, nodeData g i name = none) := by
  obtain ⟨_, sets, misc, g0, hs, hg0, hg⟩ := hydrodyn_ok int hd g h
  obtain ⟨ns, hns, rfl⟩ := hjoints_ok int hd hd.joints _ _ (by exact hs) hg0
  obtain ⟨a1, a2, a3⟩ := hjoints_spec int hd _ _ hns
  obtain ⟨_, _, b4⟩ := hmembers_ok int hd hd.members _ _ (by exact hs) (by simpa using a2) hg
  have base : ∀ k, nodeData { sets := sets, misc := misc, nodes := [] ++ ns : Graph V } i k =
      if k = "JAxCd" then ((axialRow int hd i).bind fun r => r[1]?).map .num
      else if k = "JAxCa" then ((axialRow int hd i).bind fun r => r[2]?).map .num
      else if k = "JAxCp" then ((axialRow int hd i).bind fun r => r[3]?).map .num else none := by
    intro k
    rw [nodeData]
    simp only [List.nil_append]
    rcases a3 i with ⟨h1, h2⟩ | ⟨n, r, h1, h2, i', x, y, z, a, rest, ax, c, d, e, rest', rfl, hax, rfl⟩
    · rw [h1, axialRow, h2]
      simp
    · have : axialRow int hd i = some (ax :: c :: d :: e :: rest') := by rw [axialRow, h2]; exact hax
      rw [h1, this]
      simp only [Option.bind_some, entry, List.find?_cons]
      by_cases k1 : k = "JAxCd"
      · subst k1; rfl
      by_cases k2 : k = "JAxCa"
      · subst k2; rfl
      by_cases k3 : k = "JAxCp"
      · subst k3; rfl
      have e1 : ("JAxCd" == k) = false := by simpa using Ne.symm k1
      have e2 : ("JAxCa" == k) = false := by simpa using Ne.symm k2
      have e3 : ("JAxCp" == k) = false := by simpa using Ne.symm k3
      simp [k1, k2, k3, e1, e2, e3]
  have axial : ∀ k, (∀ n, k ∉ coefNames n) → nodeData g i k = nodeData { sets := sets, misc := misc, nodes := [] ++ ns : Graph V } i k := by
    intro k hk
    by_cases hsim : Simple hd i
    · rw [(b4 i k).1 hsim, entry_other hd k hk]
      rfl
    · exact (b4 i k).2 hsim
  refine ⟨?_, ?_, ?_, ?_, ?_⟩
  · rw [axial _ fun n hn => (coefNames_other n _ hn).1 rfl, base]
    rfl
  · rw [axial _ fun n hn => (coefNames_other n _ hn).2.1 rfl, base]
    rfl
  · rw [axial _ fun n hn => (coefNames_other n _ hn).2.2 rfl, base]
    rfl
  · intro hsim r hr j name hname
    have e := entry_kvs r (simple_length int hd sets hs r hr) j name hname
    have hk : simpleKvs hd = ((coefNames r.length).zip r).map fun kv => (kv.1, Val.num kv.2) := by
      cases hc : hd.simple with
      | nil => rw [hc] at hr; cases hr
      | cons r' rows =>
        rw [hc] at hr
        obtain rfl := Option.some.inj hr
        rw [simpleKvs, hc]
    obtain ⟨n1, n2, n3⟩ := coefNames_other _ _ (List.mem_of_getElem? hname)
    rw [(b4 i name).1 hsim, hk, e, base, if_neg n1, if_neg n2, if_neg n3]
    simp
  · intro hsim n name hname
    obtain ⟨n1, n2, n3⟩ := coefNames_other _ _ hname
    rw [(b4 i name).2 hsim, base, if_neg n1, if_neg n2, if_neg n3]

/-- **C209 fails**: the moduli of an element of the graph of a summary are not those of the table. -/
theorem C209_fails : ∃ (nodes elems : List (List Int)) (ns : List (SNode Int)) (es : List (SElem Int)), summary id [] nodes elems = .ok (ns, es) ∧ ¬ List.Forall₂ ModuliAre elems es := by
  refine ⟨[[1, 0, 0, 0, 1], [2, 0, 0, 9, 1]], [[1, 1, 2, 1, 1, 1, 9, 3, 7850, 210, 80]], _, _, rfl, ?_⟩
  intro h
  cases h with
  | cons h _ => exact absurd h.1 (by decide)

/-- **C209, the part that holds**: the nodes of the graph, with their degrees of freedom, and the elements, without their moduli, are those of the tables. -/
theorem C209_partial (int : V → Int) (dofs : List (Int × Int)) (nodes elems : List (List V)) (ns : List (SNode V)) (es : List (SElem V)) (h : summary int dofs nodes elems = .ok (ns, es)) :
    List.Forall₂ (SumNodeIs int dofs) nodes ns ∧ List.Forall₂ (fun r e => SumElemIs int r e ∧ ∀ i ∈ e.nodeIDs, i ∈ ns.map SNode.id) elems es := by
  rw [summary] at h
  split at h
  · cases h
  next ns' hns =>
  split at h
  · cases h
  next es' hes =>
  cases Except.ok.inj h
  exact ⟨List.Forall₂.imp (fun r n h => sumNode_ok int dofs r n h) ((each_ok _ _ _).1 hns), List.Forall₂.imp (fun r e h => sumElem_ok int _ r e h) ((each_ok _ _ _).1 hes)⟩

end

/-- two joints, a member between them with simple coefficients -/
def exHydro : HydroDyn Int where
  sections := some [[1, 5, 1], [2, 6, 1]]
  axial := some [[1, 10, 11, 12]]
  simple := [[1, 2, 3, 4, 5, 6, 7, 8, 9, 10]]
  depth := none
  memberCoefs := none
  fill := none
  growth := none
  joints := [[1, 0, 0, -10, 1, 0], [2, 3, 4, 5, 1, 0]]
  members := [⟨1, [1, 2], [1, 2], 1, "False".toList⟩]

example : HFits id exHydro ∧ ∀ o ∈ [exHydro.depth, exHydro.memberCoefs, exHydro.fill, exHydro.growth], o = none := by
  refine ⟨⟨?_, ?_, by decide, ?_, ?_⟩, by decide⟩
  · intro rows h
    obtain rfl := Option.some.inj h
    decide
  · intro rows h
    obtain rfl := Option.some.inj h
    decide
  · intro r hr
    rcases List.mem_cons.1 hr with rfl | hr
    · exact ⟨1, 0, 0, -10, 1, [0], rfl, by decide⟩
    · obtain rfl := List.mem_singleton.1 hr
      exact ⟨2, 3, 4, 5, 1, [0], rfl, by decide⟩
  · intro m hm
    obtain rfl := List.mem_singleton.1 hm
    refine ⟨by decide, by decide, by decide, by decide, by decide⟩

example : (hydrodyn id exHydro).isOk = true := by decide +kernel

example : Simple exHydro 2 := ⟨_, List.mem_singleton.2 rfl, rfl, by decide⟩

/-- the same with marine growth -/
example : some [[-20, 0, (1 : Int)]] ∈ [none, none, none, some [[-20, 0, (1 : Int)]]] := by decide

example : (summary id [(1, 1), (2, 1)] [[1, 0, 0, 0, 1], [2, 0, 0, 9, 1]] [[1, 1, 2, 1, 1, 1, 9, 3, 7850, (210 : Int), 80]]).isOk = true := by decide +kernel

end Verif.FastGraph
