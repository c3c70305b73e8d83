import Verif.Model.Summary
import Verif.Py.Dec
import Mathlib.Tactic.Linarith
import Mathlib.Tactic.Ring
import Mathlib.Data.List.Sort
import Mathlib.Algebra.Order.Field.Basic
/-!
# C46 — independence of SubDyn summary objects;  C68 — mode shapes;
C69 — exported modes
-/
namespace Verif.Summary
open Verif.Py

/-! ## Lemmas -/

theorem dofLoop_elems (D : Data) (es : List Elem) (inodes : List Nat) (U : List (List ℚ)) (i : Nat) (l : List Nat) (a : Arr) :
    dofLoop { D with elems := es } inodes U i l a = dofLoop D inodes U i l a := by
  induction l generalizing i a with
  | nil => rfl
  | cons x l ih =>
    simp only [dofLoop, ih]
    rfl

theorem nodesDisp_elems (E : Env) (D : Data) (es : List Elem) (idof : List Nat) (ns : Nat) (U : List (List ℚ)) (md : Option ℚ) (sd : Option Nat) :
    nodesDisp E { D with elems := es } idof ns U md sd = nodesDisp E D idof ns U md sd := by
  simp only [nodesDisp, dofLoop_elems]

theorem modesOf_elems (E : Env) (D : Data) (es : List Elem) (md : ℚ) (sd : Option Nat) :
    modesOf E { D with elems := es } md sd = modesOf E D md sd := by
  simp only [modesOf, nodesDisp_elems]

theorem getModes_elems (E : Env) (S D : Data) (es es' : List Elem) (md : Option ℚ) (sd : Option Nat) :
    getModes E { S with elems := es } { D with elems := es' } md sd = getModes E S D md sd := by
  cases md with
  | some md => exact modesOf_elems E D es' md sd
  | none => simp only [getModes, modesOf_elems]; rfl

/-- the file that was read last into object `o` -/
def lastRead (o : Nat) : List Op → Option Data → Option Data
  | [], r => r
  | .read o' f :: ops, r => lastRead o ops (if o' = o then some f else r)
  | _ :: ops, r => lastRead o ops r

/-- the object that was read last -/
def lastObj : List Op → Option Nat → Option Nat
  | [], r => r
  | .read o _ :: ops, _ => lastObj ops (some o)
  | _ :: ops, r => lastObj ops r

/-- up to the element table, each object holds its own file -/
theorem run_inv (E : Env) (ops : List Op) (w : World) (r : Nat → Option Data)
    (h : ∀ o, (r o = none ∧ w.objs o = none) ∨ ∃ f es, r o = some f ∧ w.objs o = some { f with elems := es }) :
    (∀ o, (lastRead o ops (r o) = none ∧ (ops.foldl (World.step E) w).objs o = none) ∨
      ∃ f es, lastRead o ops (r o) = some f ∧ (ops.foldl (World.step E) w).objs o = some { f with elems := es }) ∧
    (ops.foldl (World.step E) w).last = lastObj ops w.last := by
  induction ops generalizing w r with
  | nil => exact ⟨h, rfl⟩
  | cons op ops ih =>
    cases op with
    | read o f =>
      have := ih (w.step E (.read o f)) (fun o' => if o = o' then some f else r o') (by
        intro o'
        by_cases ho : o = o'
        · subst ho
          right
          exact ⟨f, f.elems, by simp, by simp [World.step, World.set]⟩
        · have : ¬ o' = o := fun h => ho h.symm
          simpa [World.step, World.set, ho, this] using h o')
      exact this
    | modes o md => exact ih w r h
    | json o =>
      have hstep : ∀ o', (r o' = none ∧ (w.step E (.json o)).objs o' = none) ∨
          ∃ f es, r o' = some f ∧ (w.step E (.json o)).objs o' = some { f with elems := es } := by
        intro o'
        simp only [World.step, World.toJson]
        cases hl : w.last with
        | none => exact h o'
        | some l =>
          simp only
          cases h1 : w.objs l with
          | none => exact h o'
          | some self =>
            cases h2 : w.objs o with
            | none => exact h o'
            | some data =>
              simp only [World.set]
              by_cases ho : o' = l
              · subst ho
                rcases h o' with ⟨_, h'⟩ | ⟨f, es, hr, h'⟩
                · rw [h1] at h'; exact nomatch h'
                · right
                  rw [h1] at h'
                  injection h' with h'
                  have : ∃ es', (toJson E self data).1 = { self with elems := es' } := by
                    unfold toJson
                    split
                    · exact ⟨self.elems, rfl⟩
                    · simp only
                      split
                      · exact ⟨_, rfl⟩
                      · split <;> exact ⟨_, rfl⟩
                  obtain ⟨es', he⟩ := this
                  refine ⟨f, es', hr, ?_⟩
                  rw [if_pos rfl, he, h']
              · rw [if_neg ho]
                exact h o'
      have hlast : (w.step E (.json o)).last = w.last := by
        simp only [World.step, World.toJson]
        cases hl : w.last with
        | none => exact hl
        | some l =>
          simp only
          cases w.objs l with
          | none => exact hl
          | some self =>
            cases w.objs o with
            | none => exact hl
            | some data => exact hl
      have := ih (w.step E (.json o)) r hstep
      rw [hlast] at this
      exact this

/-! ## C46 -/

/-- **C46 for a given scale**: after any history, `getModes` with a scale gives what a program
obtains that reads only this file. -/
theorem C46_scale_partial (E : Env) (ops : List Op) (o : Nat) (f : Data) (h : lastRead o ops none = some f) (md : ℚ) (sd : Option Nat) :
    (World.run E ops).getModes E o (some md) sd = (World.run E [.read o f]).getModes E o (some md) sd := by
  obtain ⟨inv, hlast⟩ := run_inv E ops World.init (fun _ => none) (fun _ => .inl ⟨rfl, rfl⟩)
  rcases inv o with ⟨h', _⟩ | ⟨f', es, h', ho⟩
  · rw [h] at h'; exact nomatch h'
  · rw [h] at h'
    injection h' with h'
    subst h'
    have hl : ∃ l, lastObj ops none = some l ∧ ∃ g, lastRead l ops none = some g := by
      clear inv hlast ho
      have key : ∀ (ops : List Op) (r : Nat → Option Data) (lo : Option Nat), (lo = none → r o = none) →
          (∀ l, lo = some l → ∃ g, r l = some g) → lastRead o ops (r o) = some f →
          ∃ l, lastObj ops lo = some l ∧ ∃ g, lastRead l ops (r l) = some g := by
        intro ops
        induction ops with
        | nil =>
          intro r lo h1 h2 h3
          cases lo with
          | none => rw [lastRead, h1 rfl] at h3; exact nomatch h3
          | some l => exact ⟨l, rfl, h2 l rfl⟩
        | cons op ops ih =>
          intro r lo h1 h2 h3
          cases op with
          | read o' g =>
            refine ih (fun l => if o' = l then some g else r l) (some o') (fun h => nomatch h) ?_ h3
            intro l hl
            injection hl with hl
            subst hl
            exact ⟨g, by simp⟩
          | modes o' md => exact ih r lo h1 h2 h3
          | json o' => exact ih r lo h1 h2 h3
      exact key ops (fun _ => none) none (fun _ => rfl) (fun _ h => nomatch h) h
    obtain ⟨l, hl, g, hg⟩ := hl
    rcases inv l with ⟨h', _⟩ | ⟨g', es', _, hl'⟩
    · rw [hg] at h'; exact nomatch h'
    · have e1 : (World.run E ops).last = some l := hlast.trans hl
      have e2 : (World.run E ops).objs o = some { f with elems := es } := ho
      have e3 : (World.run E ops).objs l = some { g' with elems := es' } := hl'
      have e4 : (World.run E [.read o f]).last = some o := rfl
      have e5 : (World.run E [.read o f]).objs o = some f := by simp [World.run, World.step, World.set]
      simp only [World.getModes, e1, e2, e3, e4, e5]
      show modesOf E { f with elems := es } md sd = modesOf E f md sd
      exact modesOf_elems E f es md sd

/-- **C46 for the object read last**: `getModes` (and `toDataFrame`, which is a function of it)
gives what a program obtains that reads only this file. -/
theorem C46_last_partial (E : Env) (ops : List Op) (o : Nat) (f : Data) (h : lastRead o ops none = some f)
    (hl : lastObj ops none = some o) (md : Option ℚ) (sd : Option Nat) :
    (World.run E ops).getModes E o md sd = (World.run E [.read o f]).getModes E o md sd := by
  obtain ⟨inv, hlast⟩ := run_inv E ops World.init (fun _ => none) (fun _ => .inl ⟨rfl, rfl⟩)
  rcases inv o with ⟨h', _⟩ | ⟨f', es, h', ho⟩
  · rw [h] at h'; exact nomatch h'
  · rw [h] at h'
    injection h' with h'
    subst h'
    have e1 : (World.run E ops).last = some o := hlast.trans hl
    have e2 : (World.run E ops).objs o = some { f with elems := es } := ho
    have e3 : (World.run E [.read o f]).last = some o := rfl
    have e4 : (World.run E [.read o f]).objs o = some f := by simp [World.run, World.step, World.set]
    simp only [World.getModes, e1, e2, e3, e4]
    exact getModes_elems E f f es es md sd

/-- **C46 for the first export of the object read last**: `toJSON` gives what a program obtains
that reads only this file. -/
theorem C46_json_partial (E : Env) (ops ops' : List Op) (o : Nat) (f : Data)
    (hops : ∀ op ∈ ops', ∃ o' md, op = .modes o' md) :
    ((World.run E (ops ++ .read o f :: ops')).toJson E o).2 = ((World.run E [.read o f]).toJson E o).2 := by
  have key : ∀ (l : List Op) (w : World), (∀ op ∈ l, ∃ o' md, op = .modes o' md) → l.foldl (World.step E) w = w := by
    intro l
    induction l with
    | nil => intro w _; rfl
    | cons op l ih =>
      intro w h
      obtain ⟨o', md, rfl⟩ := h op (List.mem_cons_self)
      exact ih w (fun op h' => h op (List.mem_cons_of_mem _ h'))
  unfold World.run
  rw [List.foldl_append, List.foldl_cons, key ops' _ hops]
  simp only [World.toJson, World.step, World.set, List.foldl_cons, List.foldl_nil, if_true]

/-! Concrete cases: two columns of two nodes and heights 10 and 100; the lower node is the
interface. -/

abbrev toyEnv : Env := ⟨fun l => List.range l.length⟩

/-- a column of height `h` -/
abbrev column (h : ℚ) : Data where
  dofs := [(1, 1), (2, 1)]
  dofB := [0]
  dofL := [1]
  dofF := []
  nCB := 1
  phiM := [[2]]
  nR := 1
  phiR := [[1]]
  nodes := [(0, 0, 0), (0, 0, h)]
  elems := [⟨1, 1, 2, 1, 3⟩]
  freq := [5]

/-- the displacements of the Craig-Bampton mode are scaled to a tenth of the height -/
example : (World.run toyEnv [.read 0 (column 10)]).getModes toyEnv 0 none (some 2) = .ok
    ⟨⟨[1, 2], [some (0, 0, 0), some (0, 0, 10)], [[[some 1], [none], [none]], [[some 1], [none], [none]]]⟩,
      ⟨[1, 2], [some (0, 0, 0), some (0, 0, 10)], [[[some 0], [none], [none]], [[some 1], [none], [none]]]⟩⟩ := by
  decide +kernel

/-- **C46 is violated**: after a larger structure was read into another object, the modes of the
first object are scaled with the size of the larger one. -/
theorem C46_fails : (World.run toyEnv [.read 0 (column 10), .read 1 (column 100)]).getModes toyEnv 0 none (some 2)
    ≠ (World.run toyEnv [.read 0 (column 10)]).getModes toyEnv 0 none (some 2) := by
  decide +kernel

/-- **C46 is violated**: the second export numbers the nodes differently. -/
theorem C46_repeat_fails :
    (((World.run toyEnv [.read 0 (column 10)]).toJson toyEnv 0).2).map Json.connectivity = .ok [(0, 1)] ∧
    (((World.run toyEnv [.read 0 (column 10), .json 0]).toJson toyEnv 0).2).map Json.connectivity = .ok [(-1, 0)] := by
  decide +kernel

/-- **C46 is violated**: the export of the first object has the nodes of the second one, and changes
the element table of the second one. -/
theorem C46_other_fails :
    (((World.run toyEnv [.read 0 (column 10), .read 1 (column 100)]).toJson toyEnv 0).2).map Json.nodes
      = .ok [(0, 0, 0), (0, 0, 100)] ∧
    ((World.run toyEnv [.read 0 (column 10), .read 1 (column 100), .json 0]).objs 1).map Data.elems
      = some [⟨0, 0, 1, 1, 3⟩] := by
  decide +kernel

example : lastRead 0 [.read 0 (column 10), .read 1 (column 100), .json 0] none = some (column 10) := by decide +kernel

example : lastObj [.read 0 (column 10), .read 1 (column 100), .json 0] none = some 1 := rfl

/-! ## C68 -/

theorem mem_insertU (n m : Nat) (l : List Nat) : m ∈ insertU n l ↔ m = n ∨ m ∈ l := by
  induction l with
  | nil => simp [insertU]
  | cons x l ih =>
    unfold insertU
    split
    · simp
    · split
      · rename_i h
        subst h
        simp
      · simp only [List.mem_cons, ih]
        tauto

theorem mem_sortU (m : Nat) (l : List Nat) : m ∈ sortU l ↔ m ∈ l := by
  unfold sortU
  induction l with
  | nil => simp
  | cons x l ih => simp [mem_insertU, ih]

theorem insertU_sorted (n : Nat) (l : List Nat) (h : l.Pairwise (· < ·)) : (insertU n l).Pairwise (· < ·) := by
  induction l with
  | nil => simp [insertU]
  | cons x l ih =>
    unfold insertU
    rw [List.pairwise_cons] at h
    split
    · rename_i hlt
      refine List.pairwise_cons.2 ⟨fun y hy => ?_, List.pairwise_cons.2 h⟩
      rcases List.mem_cons.1 hy with rfl | hy
      · exact hlt
      · exact lt_trans hlt (h.1 y hy)
    · split
      · exact List.pairwise_cons.2 h
      · rename_i h1 h2
        refine List.pairwise_cons.2 ⟨fun y hy => ?_, ih h.2⟩
        rcases (mem_insertU n y l).1 hy with rfl | hy
        · omega
        · exact h.1 y hy

theorem sortU_sorted (l : List Nat) : (sortU l).Pairwise (· < ·) := by
  unfold sortU
  induction l with
  | nil => simp
  | cons x l ih => exact insertU_sorted x _ ih

theorem sortU_nodup (l : List Nat) : (sortU l).Nodup :=
  (sortU_sorted l).imp (fun h => Nat.ne_of_lt h)

/-- one degree of freedom of `node` in direction `dir` at position `i` of the list -/
theorem dofStep_disp (D : Data) (inodes : List Nat) (U : List (List ℚ)) (a a' : Arr) (i x : Nat) (h : dofStep D inodes U a i x = .ok a')
    (node dir : Nat) (hx : D.dofs[x]? = some (node, dir)) (h1 : 1 ≤ dir) (h3 : dir ≤ 3) :
    (∀ s, a'.disp (inodes.idxOf node) (dir - 1) s = (U[i]?).bind (·[s]?)) ∧ (a'.pos (inodes.idxOf node) = D.nodes[node - 1]?) := by
  unfold dofStep at h
  rw [hx] at h
  simp only [if_pos h3] at h
  cases hn : D.nodes[node - 1]? with
  | none => rw [hn] at h; exact nomatch h
  | some p =>
    cases hu : U[i]? with
    | none => rw [hn, hu] at h; exact nomatch h
    | some row =>
      rw [hn, hu] at h
      injection h with h
      subst h
      refine ⟨fun s => ?_, by simp⟩
      have : dir - 1 + 1 = dir := by omega
      simp [this]

theorem idxOf_inj' (l : List Nat) (a b : Nat) (ha : a ∈ l) (h : l.idxOf a = l.idxOf b) : a = b := by
  have hlt := List.idxOf_lt_length_of_mem ha
  have hb : l.idxOf b < l.length := h ▸ hlt
  have e1 : l[l.idxOf a] = a := List.getElem_idxOf hlt
  have e2 : l[l.idxOf b] = b := List.getElem_idxOf hb
  have : l[l.idxOf a] = l[l.idxOf b] := by simp only [h]
  rw [e1, e2] at this
  exact this

/-- other degrees of freedom keep the value -/
theorem dofStep_other (D : Data) (inodes : List Nat) (U : List (List ℚ)) (a a' : Arr) (i x : Nat) (h : dofStep D inodes U a i x = .ok a')
    (node dir : Nat) (hm : node ∈ inodes) (h1 : 1 ≤ dir) (hx : D.dofs[x]? ≠ some (node, dir)) :
    (∀ s, a'.disp (inodes.idxOf node) (dir - 1) s = a.disp (inodes.idxOf node) (dir - 1) s) ∧
    (a'.pos (inodes.idxOf node) = a.pos (inodes.idxOf node) ∨ a'.pos (inodes.idxOf node) = D.nodes[node - 1]?) := by
  unfold dofStep at h
  cases hd : D.dofs[x]? with
  | none => rw [hd] at h; exact nomatch h
  | some nd =>
    obtain ⟨n, d⟩ := nd
    rw [hd] at h
    simp only at h
    by_cases h3 : d ≤ 3
    · rw [if_pos h3] at h
      cases hn : D.nodes[n - 1]? with
      | none => rw [hn] at h; exact nomatch h
      | some p =>
        cases hu : U[i]? with
        | none => rw [hn, hu] at h; exact nomatch h
        | some row =>
          rw [hn, hu] at h
          injection h with h
          subst h
          have hinj : inodes.idxOf node = inodes.idxOf n → node = n := fun he =>
            idxOf_inj' inodes node n hm he
          refine ⟨fun s => ?_, ?_⟩
          · show (if _ then _ else _) = _
            rw [if_neg]
            rintro ⟨ha, hb⟩
            have hnn := hinj ha
            have hdd : d = dir := by omega
            exact hx (by rw [hd, hnn, hdd])
          · by_cases he : inodes.idxOf node = inodes.idxOf n
            · right
              simp only [if_pos he]
              rw [hinj he, hn]
            · left
              simp only [if_neg he]
    · rw [if_neg h3] at h
      injection h with h
      subst h
      exact ⟨fun _ => rfl, .inl rfl⟩

theorem dofLoop_keep (D : Data) (inodes : List Nat) (U : List (List ℚ)) (node dir : Nat) (hm : node ∈ inodes) (h1 : 1 ≤ dir)
    (l : List Nat) (hx : ∀ x ∈ l, D.dofs[x]? ≠ some (node, dir))
    (i : Nat) (a a' : Arr) (hp : a.pos (inodes.idxOf node) = D.nodes[node - 1]?) (h : dofLoop D inodes U i l a = .ok a') :
    (∀ s, a'.disp (inodes.idxOf node) (dir - 1) s = a.disp (inodes.idxOf node) (dir - 1) s) ∧
    a'.pos (inodes.idxOf node) = D.nodes[node - 1]? := by
  induction l generalizing i a with
  | nil => injection h with h; subst h; exact ⟨fun _ => rfl, hp⟩
  | cons x l ih =>
    unfold dofLoop at h
    cases hs : dofStep D inodes U a i x with
    | error e => rw [hs] at h; exact nomatch h
    | ok b =>
      rw [hs] at h
      obtain ⟨hb1, hb2⟩ := dofStep_other D inodes U a b i x hs node dir hm h1 (hx x (List.mem_cons_self))
      have hp' : b.pos (inodes.idxOf node) = D.nodes[node - 1]? := by
        rcases hb2 with hb2 | hb2
        · rw [hb2, hp]
        · exact hb2
      obtain ⟨h2, h3⟩ := ih (fun y hy => hx y (List.mem_cons_of_mem _ hy)) (i + 1) b hp' h
      exact ⟨fun s => (h2 s).trans (hb1 s), h3⟩

theorem dofLoop_at (D : Data) (inodes : List Nat) (U : List (List ℚ)) (node dir : Nat) (hm : node ∈ inodes) (h1 : 1 ≤ dir) (h3 : dir ≤ 3)
    (l : List Nat) (i : Nat) (a a' : Arr)
    (h : dofLoop D inodes U i l a = .ok a') (j x : Nat) (hj : l[j]? = some x) (hx : D.dofs[x]? = some (node, dir))
    (hu : ∀ j' x', l[j']? = some x' → D.dofs[x']? = some (node, dir) → j' = j) :
    (∀ s, a'.disp (inodes.idxOf node) (dir - 1) s = (U[i + j]?).bind (·[s]?)) ∧ a'.pos (inodes.idxOf node) = D.nodes[node - 1]? := by
  induction l generalizing i a j with
  | nil => simp at hj
  | cons y l ih =>
    unfold dofLoop at h
    cases hs : dofStep D inodes U a i y with
    | error e => rw [hs] at h; exact nomatch h
    | ok b =>
      rw [hs] at h
      cases j with
      | zero =>
        simp only [List.getElem?_cons_zero, Option.some.injEq] at hj
        subst hj
        obtain ⟨g1, g2⟩ := dofStep_disp D inodes U a b i y hs node dir hx h1 h3
        have hx' : ∀ z ∈ l, D.dofs[z]? ≠ some (node, dir) := by
          intro z hz he
          obtain ⟨k, hk⟩ := List.mem_iff_getElem?.1 hz
          have := hu (k + 1) z (by simpa using hk) he
          omega
        obtain ⟨k1, k2⟩ := dofLoop_keep D inodes U node dir hm h1 l hx' (i + 1) b a' g2 h
        exact ⟨fun s => by rw [k1, g1]; simp, k2⟩
      | succ j =>
        have := ih (i + 1) b h j (by simpa using hj)
          (fun j' x' hj' hx' => by have := hu (j' + 1) x' (by simpa using hj') hx'; omega)
        have e : i + 1 + j = i + (j + 1) := by omega
        rw [e] at this
        exact this

/-- every value of an array that was scaled is multiplied by the factor of its shape -/
theorem scaled_disp (n : Nat) (a : Arr) (md : Option ℚ) :
    ∃ c : Nat → ℚ, (∀ ii k s, (scaled n a md).disp ii k s = (a.disp ii k s).map (· * c s)) ∧ (scaled n a md).pos = a.pos ∧
      (md = none → ∀ s, c s = 1) ∧ (∀ m, md = some m → ∀ s, c s = factor n a m s) := by
  cases md with
  | none => exact ⟨fun _ => 1, fun ii k s => by cases h : a.disp ii k s <;> simp [scaled, h], rfl, fun _ _ => rfl, nofun⟩
  | some m => exact ⟨factor n a m, fun _ _ _ => rfl, rfl, nofun, fun m' h s => by injection h with h; rw [h]⟩

theorem foldl_max_ge (l : List ℚ) (x : ℚ) : x ≤ l.foldl max x ∧ ∀ y ∈ l, y ≤ l.foldl max x := by
  induction l generalizing x with
  | nil => simp
  | cons z l ih =>
    obtain ⟨h1, h2⟩ := ih (max x z)
    refine ⟨le_trans (le_max_left _ _) h1, fun y hy => ?_⟩
    rcases List.mem_cons.1 hy with rfl | hy
    · exact le_trans (le_max_right _ _) h1
    · exact h2 y hy

theorem foldl_max_mem (l : List ℚ) (x : ℚ) : l.foldl max x = x ∨ l.foldl max x ∈ l := by
  induction l generalizing x with
  | nil => simp
  | cons z l ih =>
    rcases ih (max x z) with h | h
    · rcases max_choice x z with h' | h'
      · left; rw [List.foldl_cons, h, h']
      · right; rw [List.foldl_cons, h, h']; exact List.mem_cons_self
    · right; exact List.mem_cons_of_mem _ h

theorem maxL_spec (l : List ℚ) (m : ℚ) (h : maxL l = some m) : m ∈ l ∧ ∀ y ∈ l, y ≤ m := by
  cases l with
  | nil => exact nomatch h
  | cons x l =>
    injection h with h
    subst h
    refine ⟨?_, fun y hy => ?_⟩
    · rcases foldl_max_mem l x with h | h
      · rw [h]; exact List.mem_cons_self
      · exact List.mem_cons_of_mem _ h
    · rcases List.mem_cons.1 hy with rfl | hy
      · exact (foldl_max_ge l y).1
      · exact (foldl_max_ge l x).2 y hy

theorem mem_values (n : Nat) (a : Arr) (s : Nat) (v : ℚ) :
    v ∈ values n a s ↔ ∃ ii < n, ∃ k < 3, a.disp ii k s = some v := by
  simp [values]

/-- the factor makes the largest value equal to the wanted one -/
theorem factor_spec (n : Nat) (a : Arr) (md : ℚ) (hmd : 0 ≤ md) (s : Nat) :
    ((∃ ii < n, ∃ k < 3, ∃ v, a.disp ii k s = some v ∧ 1 / 100000 < |v|) →
      (∃ ii < n, ∃ k < 3, ∃ v, a.disp ii k s = some v ∧ |v * factor n a md s| = md) ∧
      ∀ ii < n, ∀ k < 3, ∀ v, a.disp ii k s = some v → |v * factor n a md s| ≤ md) ∧
    ((∀ ii < n, ∀ k < 3, ∀ v, a.disp ii k s = some v → |v| ≤ 1 / 100000) → factor n a md s = 1) := by
  cases hl : largest n a s with
  | none =>
    have hnil : values n a s = [] := by
      unfold largest at hl
      cases hv : values n a s with
      | nil => rfl
      | cons x l => rw [hv] at hl; exact nomatch hl
    refine ⟨?_, fun _ => by simp [factor, hl]⟩
    rintro ⟨ii, hii, k, hk, v, hv, _⟩
    have := (mem_values n a s v).2 ⟨ii, hii, k, hk, hv⟩
    rw [hnil] at this
    exact nomatch this
  | some m =>
    obtain ⟨hm1, hm2⟩ := maxL_spec _ m hl
    obtain ⟨w, hw, rfl⟩ := List.mem_map.1 hm1
    obtain ⟨jj, hjj, k', hk', hw'⟩ := (mem_values n a s w).1 hw
    have hle : ∀ ii < n, ∀ k < 3, ∀ v, a.disp ii k s = some v → |v| ≤ |w| := fun ii hii k hk v hv =>
      hm2 _ (List.mem_map.2 ⟨v, (mem_values n a s v).2 ⟨ii, hii, k, hk, hv⟩, rfl⟩)
    refine ⟨?_, ?_⟩
    · rintro ⟨ii, hii, k, hk, v, hv, hgt⟩
      have hw0 : 1 / 100000 < |w| := lt_of_lt_of_le hgt (hle ii hii k hk v hv)
      have hpos : (0 : ℚ) < |w| := lt_trans (by norm_num) hw0
      have hf : factor n a md s = md / |w| := by
        simp only [factor, hl]
        exact if_pos hw0
      have habs : ∀ x : ℚ, |x * (md / |w|)| = |x| / |w| * md := by
        intro x
        rw [abs_mul, abs_div, abs_abs, abs_of_nonneg hmd]
        ring
      rw [hf]
      refine ⟨⟨jj, hjj, k', hk', w, hw', ?_⟩, ?_⟩
      · rw [habs, div_self (ne_of_gt hpos), one_mul]
      · intro ii hii k hk v hv
        rw [habs]
        have : |v| / |w| ≤ 1 := (div_le_one hpos).2 (hle ii hii k hk v hv)
        nlinarith
    · intro h
      have := h jj hjj k' hk' w hw'
      simp only [factor, hl]
      exact if_neg (not_lt.2 this)

/-- **C68**: whenever `NodesDisp` gives an answer, with or without sorting and scaling:
each node of the listed degrees of freedom stands exactly once in the answer; the translations of
a node stand in the row of that node, in the column of their direction, multiplied by a factor
that depends on the shape only; the position of that row is the position of the node; and with
a wanted displacement, the largest translation of each shape is the wanted one, except when all of
them are at most 1e-5 — then the factor is 1. -/
theorem C68_nodesDisp (E : Env) (hE : ∀ l, (E.argsort l).Perm (List.range l.length)) (D : Data) (idof : List Nat) (ns : Nat)
    (U : List (List ℚ)) (md : Option ℚ) (hmd : ∀ m, md = some m → 0 ≤ m) (sd : Option Nat) (R : Shapes)
    (h : nodesDisp E D idof ns U md sd = .ok R) :
    R.inodes.Nodup ∧ (∀ n, n ∈ R.inodes ↔ ∃ i ∈ idof, ∃ d, D.dofs[i]? = some (n, d)) ∧
    R.pos.length = R.inodes.length ∧ R.disp.length = R.inodes.length ∧
    ∃ c : Nat → ℚ,
      (∀ (j x r node dir : Nat), idof[j]? = some x → D.dofs[x]? = some (node, dir) → 1 ≤ dir → dir ≤ 3 →
        (∀ j' x', idof[j']? = some x' → D.dofs[x']? = some (node, dir) → j' = j) →
        R.inodes[r]? = some node →
        R.pos[r]? = some (D.nodes[node - 1]?) ∧
        ∀ s < ns, ((R.disp[r]?).bind (·[dir - 1]?)).bind (·[s]?) = some (((U[j]?).bind (·[s]?)).map (· * c s))) ∧
      (md = none → ∀ s, c s = 1) ∧
      (∀ m, md = some m → ∀ s < ns,
        let col := fun v => ∃ row ∈ R.disp, ∃ t ∈ row, t[s]? = some (some v)
        ((∀ v, col v → |v| ≤ m) ∧ ∃ v, col v ∧ |v| = m) ∨ (c s = 1 ∧ ∀ v, col v → |v| ≤ 1 / 100000)) := by
  unfold nodesDisp at h
  split at h
  · exact nomatch h
  · rename_i hany
    have hlt : ∀ i ∈ idof, i < D.dofs.length := by
      intro i hi
      by_contra hge
      exact hany (List.any_eq_true.2 ⟨i, hi, by simpa using hge⟩)
    simp only at h
    generalize hin : sortU (idof.map fun i => (D.dofs.getD i (0, 0)).1) = inodes at h
    have hmem : ∀ n, n ∈ inodes ↔ ∃ i ∈ idof, ∃ d, D.dofs[i]? = some (n, d) := by
      intro n
      rw [← hin, mem_sortU, List.mem_map]
      constructor
      · rintro ⟨i, hi, he⟩
        refine ⟨i, hi, (D.dofs.getD i (0, 0)).2, ?_⟩
        rw [← he, List.getElem?_eq_getElem (hlt i hi)]
        simp [List.getD, List.getElem?_eq_getElem (hlt i hi)]
      · rintro ⟨i, hi, d, he⟩
        exact ⟨i, hi, by simp [List.getD, he]⟩
    have hnd : inodes.Nodup := by rw [← hin]; exact sortU_nodup _
    cases hl : dofLoop D inodes U 0 idof Arr.empty with
    | error e => rw [hl] at h; exact nomatch h
    | ok a =>
      rw [hl] at h
      simp only at h
      injection h with h
      generalize hI : order E inodes.length (scaled inodes.length a md) sd = I at h
      have hperm : I.Perm (List.range inodes.length) := by
        rw [← hI]
        cases sd with
        | none => exact List.Perm.refl _
        | some d => simpa [order] using hE ((List.range inodes.length).map fun ii => ((scaled inodes.length a md).pos ii).map (coord d))
      have hIlt : ∀ i ∈ I, i < inodes.length := fun i hi => List.mem_range.1 (hperm.mem_iff.1 hi)
      obtain ⟨c, hc1, hc2, hc3, hc4⟩ := scaled_disp inodes.length a md
      have hget : (List.range inodes.length).map (fun ii => inodes.getD ii 0) = inodes := by
        apply List.ext_getElem?
        intro i
        by_cases hi : i < inodes.length
        · simp [hi]
        · simp [hi]
      have hip : (I.map fun ii => inodes.getD ii 0).Perm inodes := by
        have := hperm.map (fun ii => inodes.getD ii 0)
        rwa [hget] at this
      subst h
      refine ⟨hip.nodup_iff.2 hnd, fun n => (hip.mem_iff).trans (hmem n), by simp, by simp, c, ?_, hc3, ?_⟩
      · intro j x r node dir hj hx h1 h3 hu hr
        have hm : node ∈ inodes := (hmem node).2 ⟨x, List.mem_of_getElem? hj, dir, hx⟩
        obtain ⟨g1, g2⟩ := dofLoop_at D inodes U node dir hm h1 h3 idof 0 Arr.empty a hl j x hj hx hu
        simp only [List.getElem?_map, Option.map_eq_some_iff] at hr
        obtain ⟨ii, hii, hnode⟩ := hr
        have hiilt := hIlt ii (List.mem_of_getElem? hii)
        have hidx : inodes.idxOf node = ii := by
          rw [← hnode, List.getD, List.getElem?_eq_getElem hiilt]
          exact hnd.idxOf_getElem ii hiilt
        rw [hidx] at g1 g2
        simp only [List.getElem?_map, hii, Option.map_some, Option.bind_some]
        refine ⟨by rw [hc2, g2], fun s hs => ?_⟩
        have hd : dir - 1 < 3 := by omega
        simp only [List.getElem?_range hd, Option.map_some, Option.bind_some, List.getElem?_map, List.getElem?_range hs, hc1, g1, Nat.zero_add]
      · intro m hm s hs
        simp only
        have hcol : ∀ v, (∃ row ∈ I.map fun ii => (List.range 3).map fun k => (List.range ns).map fun s => (scaled inodes.length a md).disp ii k s,
            ∃ t ∈ row, t[s]? = some (some v)) ↔ ∃ ii < inodes.length, ∃ k < 3, ∃ w, a.disp ii k s = some w ∧ v = w * c s := by
          intro v
          constructor
          · rintro ⟨row, hrow, t, ht, hts⟩
            obtain ⟨ii, hii, rfl⟩ := List.mem_map.1 hrow
            obtain ⟨k, hk, rfl⟩ := List.mem_map.1 ht
            rw [List.getElem?_map, List.getElem?_range hs, Option.map_some, hc1] at hts
            injection hts with hts
            obtain ⟨w, hw, hv⟩ := Option.map_eq_some_iff.1 hts
            exact ⟨ii, hIlt ii hii, k, List.mem_range.1 hk, w, hw, hv.symm⟩
          · rintro ⟨ii, hii, k, hk, w, hw, rfl⟩
            refine ⟨_, List.mem_map.2 ⟨ii, hperm.mem_iff.2 (List.mem_range.2 hii), rfl⟩, _, List.mem_map.2 ⟨k, List.mem_range.2 hk, rfl⟩, ?_⟩
            rw [List.getElem?_map, List.getElem?_range hs, Option.map_some, hc1, hw]
            rfl
        obtain ⟨f1, f2⟩ := factor_spec inodes.length a m (hmd m hm) s
        rw [← hc4 m hm s] at f1 f2
        by_cases hbig : ∃ ii < inodes.length, ∃ k < 3, ∃ v, a.disp ii k s = some v ∧ 1 / 100000 < |v|
        · left
          obtain ⟨⟨ii, hii, k, hk, v, hv, hv'⟩, k2⟩ := f1 hbig
          refine ⟨fun v hv => ?_, v * c s, (hcol _).2 ⟨ii, hii, k, hk, v, hv, rfl⟩, hv'⟩
          obtain ⟨ii, hii, k, hk, w, hw, rfl⟩ := (hcol v).1 hv
          exact k2 ii hii k hk w hw
        · right
          have hall : ∀ ii < inodes.length, ∀ k < 3, ∀ v, a.disp ii k s = some v → |v| ≤ 1 / 100000 := by
            intro ii hii k hk v hv
            by_contra hgt
            exact hbig ⟨ii, hii, k, hk, v, hv, not_le.1 hgt⟩
          have hc := f2 hall
          refine ⟨hc, fun v hv => ?_⟩
          obtain ⟨ii, hii, k, hk, w, hw, rfl⟩ := (hcol v).1 hv
          rw [hc, mul_one]
          exact hall ii hii k hk w hw

/-- a concrete case with two nodes in reversed order of height, one of them with two directions,
and a scale: node 2 has translations 3 and -4, which become 6 and -8 -/
example : nodesDisp ⟨fun l => (List.range l.length).reverse⟩
    { column 10 with dofs := [(1, 1), (2, 1), (2, 3), (2, 4)], nodes := [(0, 0, 10), (1, 0, 0)] } [0, 1, 2, 3] 1
    [[1], [3], [-4], [100]] (some 8) (some 2) = .ok
    ⟨[2, 1], [some (1, 0, 0), some (0, 0, 10)],
      [[[some 6], [none], [some (-8)]], [[some 2], [none], [none]]]⟩ := by
  decide +kernel

example : ∀ l : List (Option ℚ), (List.range l.length).reverse.Perm (List.range l.length) := fun _ => List.reverse_perm _

/-! ## C69 — the rows of the exported modes -/

/-- sorting makes the positions increasing along the chosen axis -/
theorem nodesDisp_sorted (E : Env) (hE : ∀ l, (E.argsort l).Perm (List.range l.length))
    (hS : ∀ l : List (Option ℚ), (∀ x ∈ l, x ≠ none) → ((E.argsort l).map fun i => (l.getD i none).getD 0).Pairwise (· ≤ ·))
    (D : Data) (idof : List Nat) (ns : Nat) (U : List (List ℚ)) (md : Option ℚ) (d : Nat) (R : Shapes)
    (h : nodesDisp E D idof ns U md (some d) = .ok R) (hsome : ∀ p ∈ R.pos, p ≠ none) :
    (R.pos.map fun p => (p.map (coord d)).getD 0).Pairwise (· ≤ ·) := by
  unfold nodesDisp at h
  split at h
  · exact nomatch h
  · simp only at h
    generalize sortU (idof.map fun i => (D.dofs.getD i (0, 0)).1) = inodes at h
    cases hl : dofLoop D inodes U 0 idof Arr.empty with
    | error e => rw [hl] at h; exact nomatch h
    | ok a =>
      rw [hl] at h
      simp only at h
      injection h with h
      generalize scaled inodes.length a md = b at h
      subst h
      simp only [order] at hsome ⊢
      generalize hll : ((List.range inodes.length).map fun ii => (b.pos ii).map (coord d)) = l at hsome ⊢
      have hlen : l.length = inodes.length := by rw [← hll]; simp
      have hp := hE l
      rw [hlen] at hp
      have h1 : ∀ x ∈ l, x ≠ none := by
        intro x hx hn
        rw [← hll] at hx
        obtain ⟨ii, hii, rfl⟩ := List.mem_map.1 hx
        have := hsome (b.pos ii) (List.mem_map.2 ⟨ii, hp.mem_iff.2 hii, rfl⟩)
        exact this (Option.map_eq_none_iff.1 hn)
      have h2 := hS l h1
      rw [List.map_map]
      refine (List.map_congr_left ?_ : List.map _ _ = List.map _ _) ▸ h2
      intro i hi
      have hi' := List.mem_range.1 (hp.mem_iff.1 hi)
      rw [← hll]
      simp [List.getD, hi']

/-- two lists with strictly increasing numbers and the same members are equal -/
theorem eq_of_sorted (l l' : List Nat) (h : l.Pairwise (· < ·)) (h' : l'.Pairwise (· < ·)) (hm : ∀ x, x ∈ l ↔ x ∈ l') : l = l' := by
  have hp : l.Perm l' := (List.perm_ext_iff_of_nodup (h.imp (fun h => Nat.ne_of_lt h)) (h'.imp (fun h => Nat.ne_of_lt h))).2 hm
  exact hp.eq_of_pairwise (fun a b _ _ h1 h2 => absurd h1 (Nat.lt_asymm h2)) h h'

/-- for a structure whose nodes are listed from bottom to top, the rows come out in file order -/
theorem nodesDisp_inorder (E : Env) (hE : ∀ l, (E.argsort l).Perm (List.range l.length))
    (hS : ∀ l : List (Option ℚ), (∀ x ∈ l, x ≠ none) → ((E.argsort l).map fun i => (l.getD i none).getD 0).Pairwise (· ≤ ·))
    (D : Data) (idof : List Nat) (ns : Nat) (U : List (List ℚ)) (md : ℚ) (hmd : 0 ≤ md) (d : Nat) (R : Shapes)
    (hcover : ∀ n, 1 ≤ n → n ≤ D.nodes.length → ∃ i ∈ idof, ∃ k, 1 ≤ k ∧ k ≤ 3 ∧ D.dofs[i]? = some (n, k))
    (honly : ∀ i ∈ idof, ∀ n k, D.dofs[i]? = some (n, k) → 1 ≤ n ∧ n ≤ D.nodes.length)
    (huniq : ∀ (j j' x x' : Nat) p, idof[j]? = some x → idof[j']? = some x' → D.dofs[x]? = some p → D.dofs[x']? = some p → j = j')
    (hup : (D.nodes.map (coord d)).Pairwise (· < ·))
    (h : nodesDisp E D idof ns U (some md) (some d) = .ok R) :
    R.inodes = List.range' 1 D.nodes.length ∧ R.pos = D.nodes.map some := by
  obtain ⟨hnd, hmem, hl1, _, c, hrow, _, _⟩ := C68_nodesDisp E hE D idof ns U (some md) (fun m h => by injection h with h; rw [← h]; exact hmd) (some d) R h
  have hmem' : ∀ n, n ∈ R.inodes ↔ 1 ≤ n ∧ n ≤ D.nodes.length := by
    intro n
    rw [hmem]
    constructor
    · rintro ⟨i, hi, k, hk⟩
      exact honly i hi n k hk
    · rintro ⟨h1, h2⟩
      obtain ⟨i, hi, k, _, _, hk⟩ := hcover n h1 h2
      exact ⟨i, hi, k, hk⟩
  have hpos : ∀ (r n : Nat), R.inodes[r]? = some n → R.pos[r]? = some (D.nodes[n - 1]?) := by
    intro r n hr
    obtain ⟨h1, h2⟩ := (hmem' n).1 (List.mem_of_getElem? hr)
    obtain ⟨x, hx, k, hk1, hk3, hk⟩ := hcover n h1 h2
    obtain ⟨j, hj⟩ := List.mem_iff_getElem?.1 hx
    exact (hrow j x r n k hj hk hk1 hk3 (fun j' x' hj' hx' => huniq j' j x' x _ hj' hj hx' hk) hr).1
  have hposmap : R.pos = R.inodes.map fun n => D.nodes[n - 1]? := by
    apply List.ext_getElem?
    intro r
    rw [List.getElem?_map]
    cases hr : R.inodes[r]? with
    | none =>
      rw [List.getElem?_eq_none_iff] at hr
      rw [Option.map_none, List.getElem?_eq_none_iff]
      omega
    | some n => rw [hpos r n hr]; rfl
  have hsome : ∀ p ∈ R.pos, p ≠ none := by
    intro p hp hn
    rw [hposmap] at hp
    obtain ⟨n, hn', rfl⟩ := List.mem_map.1 hp
    obtain ⟨h1, h2⟩ := (hmem' n).1 hn'
    rw [List.getElem?_eq_none_iff] at hn
    omega
  have hsorted := nodesDisp_sorted E hE hS D idof ns U (some md) d R h hsome
  have hlt : R.inodes.Pairwise (· < ·) := by
    rw [hposmap, List.map_map, List.pairwise_map] at hsorted
    refine List.Pairwise.imp_of_mem ?_ (hsorted.and hnd)
    intro a b ha hb hab
    obtain ⟨hle, hne⟩ := hab
    obtain ⟨ha1, ha2⟩ := (hmem' a).1 ha
    obtain ⟨hb1, hb2⟩ := (hmem' b).1 hb
    by_contra hge
    have hba : b - 1 < a - 1 := by omega
    have := List.pairwise_iff_getElem.1 hup (b - 1) (a - 1) (by simp; omega) (by simp; omega) hba
    simp only [List.getElem_map] at this
    have e1 : D.nodes[a - 1]? = some D.nodes[a - 1] := List.getElem?_eq_getElem (by omega)
    have e2 : D.nodes[b - 1]? = some D.nodes[b - 1] := List.getElem?_eq_getElem (by omega)
    simp only [Function.comp_apply, e1, e2, Option.map_some, Option.getD_some] at hle
    exact absurd hle (not_le.2 this)
  have hin : R.inodes = List.range' 1 D.nodes.length := by
    refine eq_of_sorted _ _ hlt (List.pairwise_lt_range' ..) (fun x => ?_)
    rw [hmem', List.mem_range'_1]
    omega
  refine ⟨hin, ?_⟩
  rw [hposmap, hin]
  apply List.ext_getElem?
  intro r
  by_cases hr : r < D.nodes.length
  · simp [hr]
  · simp [hr]

/-- **C69 for structures listed from bottom to top**: in the exported dictionary, row `r` of each
mode belongs to node `r` of the exported nodes. -/
theorem C69_partial (E : Env) (hE : ∀ l, (E.argsort l).Perm (List.range l.length))
    (hS : ∀ l : List (Option ℚ), (∀ x ∈ l, x ≠ none) → ((E.argsort l).map fun i => (l.getD i none).getD 0).Pairwise (· ≤ ·))
    (D : Data)
    (hcover : ∀ n, 1 ≤ n → n ≤ D.nodes.length → ∃ i ∈ D.dofB ++ D.dofL ++ D.dofF, ∃ k, 1 ≤ k ∧ k ≤ 3 ∧ D.dofs[i]? = some (n, k))
    (honly : ∀ i ∈ D.dofB ++ D.dofL ++ D.dofF, ∀ n k, D.dofs[i]? = some (n, k) → 1 ≤ n ∧ n ≤ D.nodes.length)
    (huniq : ∀ (j j' x x' : Nat) p, (D.dofB ++ D.dofL ++ D.dofF)[j]? = some x → (D.dofB ++ D.dofL ++ D.dofF)[j']? = some x' →
      D.dofs[x]? = some p → D.dofs[x']? = some p → j = j')
    (hup : (D.nodes.map (coord 2)).Pairwise (· < ·)) (D' : Data) (J : Json) (h : toJson E D D = (D', .ok J)) :
    J.modes.cb.pos = J.nodes.map some ∧ J.modes.gy.pos = J.nodes.map some ∧
    J.modes.cb.inodes = List.range' 1 J.nodes.length ∧ J.modes.gy.inodes = List.range' 1 J.nodes.length := by
  unfold toJson at h
  cases hm : getModes E D D none (some 2) with
  | error e => rw [hm] at h; exact nomatch h
  | ok m =>
    rw [hm] at h
    simp only at h
    split at h
    · exact nomatch h
    · split at h
      · exact nomatch h
      · injection h with _ h
        injection h with h
        subst h
        simp only
        unfold getModes at hm
        simp only at hm
        cases hd : defaultDisp D with
        | error e => rw [hd] at hm; exact nomatch hm
        | ok md =>
          rw [hd] at hm
          simp only at hm
          have hmd : 0 ≤ md := by
            unfold defaultDisp at hd
            split at hd
            · rename_i x1 x0 y1 y0 z1 z0 _ _ _ _ hz1 hz0
              injection hd with hd
              obtain ⟨hz1m, hz1'⟩ := maxL_spec _ _ hz1
              have hz : z0 ≤ z1 := by
                cases hn : D.nodes.map (coord 2) with
                | nil => rw [hn] at hz1; exact nomatch hz1
                | cons x l =>
                  rw [hn] at hz0 hz1'
                  injection hz0 with hz0
                  have : z0 ≤ x := by
                    rw [← hz0]
                    clear hz0 hz1' hn
                    have key : ∀ (l : List ℚ) (x : ℚ), l.foldl min x ≤ x := by
                      intro l
                      induction l with
                      | nil => intro x; exact le_refl _
                      | cons y l ih => intro x; exact le_trans (ih _) (min_le_left _ _)
                    exact key l x
                  exact le_trans this (hz1' x List.mem_cons_self)
              rw [← hd]
              have : 0 ≤ max (max (x1 - x0) (y1 - y0)) (z1 - z0) := le_trans (by linarith) (le_max_right _ _)
              exact mul_nonneg this (by norm_num)
            · exact nomatch hd
          unfold modesOf at hm
          simp only at hm
          split at hm
          · exact nomatch hm
          · rename_i cb hcb
            split at hm
            · exact nomatch hm
            · split at hm
              · exact nomatch hm
              · rename_i gy hgy
                injection hm with hm
                subst hm
                obtain ⟨a1, a2⟩ := nodesDisp_inorder E hE hS D _ _ _ md hmd 2 cb hcover honly huniq hup hcb
                obtain ⟨b1, b2⟩ := nodesDisp_inorder E hE hS D _ _ _ md hmd 2 gy hcover honly huniq hup hgy
                exact ⟨a2, b2, a1, b1⟩

/-- sorting by insertion satisfies the laws asked of `np.argsort` -/
abbrev sortEnv : Env := ⟨fun l => (List.range l.length).insertionSort (fun i j => (l.getD i none).getD 0 ≤ (l.getD j none).getD 0)⟩

theorem sortEnv_perm (l : List (Option ℚ)) : (sortEnv.argsort l).Perm (List.range l.length) := List.perm_insertionSort _ _

theorem sortEnv_sorted (l : List (Option ℚ)) : ((sortEnv.argsort l).map fun i => (l.getD i none).getD 0).Pairwise (· ≤ ·) := by
  rw [List.pairwise_map]
  have : Std.Total (fun i j : Nat => (l.getD i none).getD 0 ≤ (l.getD j none).getD 0) := ⟨fun a b => le_total _ _⟩
  have : IsTrans Nat (fun i j : Nat => (l.getD i none).getD 0 ≤ (l.getD j none).getD 0) := ⟨fun a b c h1 h2 => le_trans h1 h2⟩
  exact List.pairwise_insertionSort _ _

/-- the laws hold for `sortEnv`, and the column meets the conditions -/
example (h : ℚ) (hh : 0 < h) : ((column h).nodes.map (coord 2)).Pairwise (· < ·) := by
  simp [coord, hh]

example (D' : Data) (J : Json) (h : toJson sortEnv (column 10) (column 10) = (D', .ok J)) :
    J.modes.cb.pos = J.nodes.map some := by
  refine (C69_partial sortEnv sortEnv_perm (fun l _ => sortEnv_sorted l) (column 10) ?_ ?_ ?_ ?_ D' J h).1
  · intro n h1 h2
    have : n = 1 ∨ n = 2 := by simp at h2; omega
    rcases this with rfl | rfl
    · exact ⟨0, by simp, 1, by simp⟩
    · exact ⟨1, by simp, 1, by simp⟩
  · intro i hi n k h
    have : i = 0 ∨ i = 1 := by simpa using hi
    rcases this with rfl | rfl <;> simp at h <;> simp [← h.1]
  · intro j j' x x' p h1 h2 h3 h4
    have hj : j < 2 := by have := (List.getElem?_eq_some_iff.1 h1).1; simpa using this
    have hj' : j' < 2 := by have := (List.getElem?_eq_some_iff.1 h2).1; simpa using this
    obtain rfl | rfl : j = 0 ∨ j = 1 := by omega
    all_goals obtain rfl | rfl : j' = 0 ∨ j' = 1 := by omega
    all_goals first | rfl | (simp at h1 h2; subst h1 h2; simp at h3 h4; rw [← h3] at h4; simp at h4)
  · simp [coord]

/-- the export of the column succeeds -/
example : (toJson sortEnv (column 10) (column 10)).2.toBool = true := by decide +kernel

theorem minL_spec (l : List ℚ) (m : ℚ) (h : minL l = some m) : m ∈ l ∧ ∀ x ∈ l, m ≤ x := by
  cases l with
  | nil => exact nomatch h
  | cons x l =>
    injection h with h
    subst h
    have key : ∀ (l : List ℚ) (x : ℚ), (l.foldl min x = x ∨ l.foldl min x ∈ l) ∧ l.foldl min x ≤ x ∧ ∀ y ∈ l, l.foldl min x ≤ y := by
      intro l
      induction l with
      | nil => intro x; simp
      | cons y l ih =>
        intro x
        obtain ⟨h1, h2, h3⟩ := ih (min x y)
        simp only [List.foldl_cons]
        refine ⟨?_, le_trans h2 (min_le_left _ _), ?_⟩
        · rcases h1 with h1 | h1
          · rcases le_total x y with hxy | hxy
            · left; rw [h1, min_eq_left hxy]
            · right; rw [h1, min_eq_right hxy]; simp
          · right; simp [h1]
        · intro z hz
          rcases List.mem_cons.1 hz with rfl | hz
          · exact le_trans h2 (min_le_right _ _)
          · exact h3 z hz
    obtain ⟨h1, h2, h3⟩ := key l x
    refine ⟨?_, ?_⟩
    · rcases h1 with h1 | h1
      · rw [h1]; simp
      · simp [h1]
    · intro y hy
      rcases List.mem_cons.1 hy with rfl | hy
      · exact h2
      · exact h3 y hy

/-- the largest extent along a coordinate -/
theorem extent (l : List (ℚ × ℚ × ℚ)) (f : ℚ × ℚ × ℚ → ℚ) (hne : l ≠ []) :
    ∃ a b, maxL (l.map f) = some b ∧ minL (l.map f) = some a ∧ (∀ p ∈ l, ∀ q ∈ l, f q - f p ≤ b - a) ∧
      ∃ p ∈ l, ∃ q ∈ l, f q - f p = b - a := by
  obtain ⟨b, hb⟩ : ∃ b, maxL (l.map f) = some b := by
    cases l with
    | nil => exact absurd rfl hne
    | cons x l => exact ⟨_, rfl⟩
  obtain ⟨a, ha⟩ : ∃ a, minL (l.map f) = some a := by
    cases l with
    | nil => exact absurd rfl hne
    | cons x l => exact ⟨_, rfl⟩
  obtain ⟨b1, b2⟩ := maxL_spec _ _ hb
  obtain ⟨a1, a2⟩ := minL_spec _ _ ha
  obtain ⟨q, hq, rfl⟩ := List.mem_map.1 b1
  obtain ⟨p, hp, rfl⟩ := List.mem_map.1 a1
  refine ⟨_, _, hb, ha, ?_, p, hp, q, hq, rfl⟩
  intro p' hp' q' hq'
  have h1 := b2 _ (List.mem_map_of_mem hq')
  have h2 := a2 _ (List.mem_map_of_mem hp')
  linarith

/-- **C68**, the default: without `maxDisp` the largest translation wanted is a tenth of the largest
extent of the structure along an axis -/
theorem C68_default (E : Env) (D : Data) (hne : D.nodes ≠ []) (sd : Option Nat) :
    ∃ md, getModes E D D none sd = getModes E D D (some md) sd ∧
      (∀ p ∈ D.nodes, ∀ q ∈ D.nodes,
        q.1 - p.1 ≤ 10 * md ∧ q.2.1 - p.2.1 ≤ 10 * md ∧ q.2.2 - p.2.2 ≤ 10 * md) ∧
      ∃ p ∈ D.nodes, ∃ q ∈ D.nodes, q.1 - p.1 = 10 * md ∨ q.2.1 - p.2.1 = 10 * md ∨ q.2.2 - p.2.2 = 10 * md := by
  obtain ⟨x0, x1, hx1, hx0, hx, px, hpx, qx, hqx, ex⟩ := extent D.nodes (coord 0) hne
  obtain ⟨y0, y1, hy1, hy0, hy, py, hpy, qy, hqy, ey⟩ := extent D.nodes (coord 1) hne
  obtain ⟨z0, z1, hz1, hz0, hz, pz, hpz, qz, hqz, ez⟩ := extent D.nodes (coord 2) hne
  have hd : defaultDisp D = .ok (max (max (x1 - x0) (y1 - y0)) (z1 - z0) * (1 / 10)) := by
    rw [defaultDisp, hx1, hx0, hy1, hy0, hz1, hz0]
  refine ⟨max (max (x1 - x0) (y1 - y0)) (z1 - z0) * (1 / 10), by simp only [getModes, hd], ?_, ?_⟩
  · intro p hp q hq
    have e1 := hx p hp q hq
    have e2 := hy p hp q hq
    have e3 := hz p hp q hq
    simp only [coord, if_true, one_ne_zero, if_false, OfNat.ofNat_ne_zero, OfNat.ofNat_ne_one] at e1 e2 e3
    have m1 : x1 - x0 ≤ max (max (x1 - x0) (y1 - y0)) (z1 - z0) := le_trans (le_max_left _ _) (le_max_left _ _)
    have m2 : y1 - y0 ≤ max (max (x1 - x0) (y1 - y0)) (z1 - z0) := le_trans (le_max_right _ _) (le_max_left _ _)
    have m3 : z1 - z0 ≤ max (max (x1 - x0) (y1 - y0)) (z1 - z0) := le_max_right _ _
    refine ⟨?_, ?_, ?_⟩ <;> linarith
  · simp only [coord, if_true, one_ne_zero, if_false, OfNat.ofNat_ne_zero, OfNat.ofNat_ne_one] at ex ey ez
    rcases le_total (max (x1 - x0) (y1 - y0)) (z1 - z0) with h | h
    · exact ⟨pz, hpz, qz, hqz, .inr (.inr (by rw [max_eq_right h, ez]; ring))⟩
    · rw [max_eq_left h]
      rcases le_total (x1 - x0) (y1 - y0) with h | h
      · exact ⟨py, hpy, qy, hqy, .inr (.inl (by rw [max_eq_right h, ey]; ring))⟩
      · exact ⟨px, hpx, qx, hqx, .inl (by rw [max_eq_left h, ex]; ring)⟩

example : (column 10).nodes ≠ [] := by decide

/-- **C68**, sorting: with `sortDim`, the nodes come in the order of that coordinate -/
theorem C68_sorted (E : Env) (hE : ∀ l, (E.argsort l).Perm (List.range l.length))
    (hS : ∀ l : List (Option ℚ), (∀ x ∈ l, x ≠ none) → ((E.argsort l).map fun i => (l.getD i none).getD 0).Pairwise (· ≤ ·))
    (D : Data) (idof : List Nat) (ns : Nat) (U : List (List ℚ)) (md : Option ℚ) (d : Nat) (R : Shapes)
    (h : nodesDisp E D idof ns U md (some d) = .ok R) (ps : List (ℚ × ℚ × ℚ)) (hp : R.pos = ps.map some) :
    (d = 0 → ps.Pairwise fun p q => p.1 ≤ q.1) ∧ (d = 1 → ps.Pairwise fun p q => p.2.1 ≤ q.2.1) ∧
    (d = 2 → ps.Pairwise fun p q => p.2.2 ≤ q.2.2) := by
  have key : ps.Pairwise fun p q => coord d p ≤ coord d q := by
    unfold nodesDisp at h
    split at h
    · exact nomatch h
    · simp only at h
      split at h
      · exact nomatch h
      · injection h with h
        subst h
        simp only at hp
        generalize sortU (idof.map fun i => (D.dofs.getD i (0, 0)).1) = inodes at hp
        rename_i a _
        generalize scaled inodes.length a md = b at hp
        simp only [order] at hp
        generalize hl : (List.range inodes.length).map (fun ii => (b.pos ii).map (coord d)) = l at hp
        have hlen : l.length = inodes.length := by rw [← hl]; simp
        have hget : ∀ i ∈ E.argsort l, l.getD i none = (b.pos i).map (coord d) := by
          intro i hi
          have : i < inodes.length := by rw [← hlen]; exact List.mem_range.1 ((hE l).mem_iff.1 hi)
          rw [← hl, List.getD_eq_getElem?_getD, List.getElem?_map, List.getElem?_range this]; rfl
        have hsome : ∀ i ∈ E.argsort l, ∃ p, b.pos i = some p := by
          intro i hi
          have : b.pos i ∈ ps.map some := by rw [← hp]; exact List.mem_map_of_mem hi
          obtain ⟨p, -, e⟩ := List.mem_map.1 this
          exact ⟨p, e.symm⟩
        have hs := hS l (by
          intro x hx
          rw [← hl] at hx
          obtain ⟨i, hi, rfl⟩ := List.mem_map.1 hx
          obtain ⟨p, e⟩ := hsome i ((hE l).mem_iff.2 (by rw [hlen]; exact hi))
          rw [e]; simp)
        have hps : ((E.argsort l).map fun i => (l.getD i none).getD 0) = ps.map (coord d) := by
          have e1 : ((E.argsort l).map fun i => (l.getD i none).getD 0) =
              ((E.argsort l).map b.pos).map (fun o => (o.map (coord d)).getD 0) := by
            rw [List.map_map]
            apply List.map_congr_left
            intro i hi
            simp only [Function.comp]
            rw [hget i hi]
          rw [e1, hp, List.map_map]
          rfl
        rw [hps, List.pairwise_map] at hs
        exact hs
  refine ⟨?_, ?_, ?_⟩ <;> intro e <;> subst e <;> simpa [coord] using key

example : (nodesDisp sortEnv { column 10 with nodes := [(0, 0, 10), (0, 0, 0)] } [0, 1] 1 [[0], [1]] none (some 2)).map Shapes.pos = .ok ([(0, 0, 0), (0, 0, 10)].map some) := by
  decide +kernel

/-- a column whose upper node is listed first -/
abbrev topDown : Data := { column 10 with nodes := [(0, 0, 10), (0, 0, 0)] }

/-- **C69 is violated**: the modes are sorted by height while the nodes are exported as listed. For
a column whose upper node (which moves by 1 in the Guyan mode, and by 0 in the Craig-Bampton mode)
is listed first, the first row of the Craig-Bampton mode is the displacement 1 of node 2. -/
theorem C69_fails : (toJson sortEnv topDown topDown).2 = .ok
    ⟨[(0, 1)], [(0, 0, 10), (0, 0, 0)], [(1, 3)],
      ⟨⟨[2, 1], [some (0, 0, 0), some (0, 0, 10)], [[[some 1], [none], [none]], [[some 1], [none], [none]]]⟩,
       ⟨[2, 1], [some (0, 0, 0), some (0, 0, 10)], [[[some 1], [none], [none]], [[some 0], [none], [none]]]⟩⟩,
      [5], 0⟩ := by
  decide +kernel

end Verif.Summary
