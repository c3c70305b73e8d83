import Verif.Model.Vtk
import Mathlib.Tactic.Ring
import Mathlib.Tactic.Linarith
import Mathlib.Data.List.Basic
import Mathlib.Data.List.Nodup
/-!
# VTK lemmas: index arithmetic of structured grids, packed connectivity
-/
namespace Verif.Vtk
open Verif.Py

/-! ## Ranges as grids -/

theorem range_mul (a b : Nat) :
    List.range (a * b) = (List.range b).flatMap (fun j => (List.range a).map (fun i => i + a * j)) := by
  induction b with
  | zero => simp
  | succ b ih =>
    rw [Nat.mul_succ, List.range_add, ih, List.range_succ, List.flatMap_append]
    congr 1
    simp only [List.flatMap_cons, List.flatMap_nil, List.append_nil]
    apply List.map_congr_left
    intro i _; omega

/-- positions of a box, first index fastest -/
def box (a b c : Nat) : List (Nat × Nat × Nat) :=
  (List.range c).flatMap fun k => (List.range b).flatMap fun j => (List.range a).map fun i => (i, j, k)

theorem mem_box {a b c i j k : Nat} : (i, j, k) ∈ box a b c ↔ i < a ∧ j < b ∧ k < c := by
  simp only [box, List.mem_flatMap, List.mem_map, List.mem_range, Prod.mk.injEq]
  constructor
  · rintro ⟨k', hk, j', hj, i', hi, rfl, rfl, rfl⟩; exact ⟨hi, hj, hk⟩
  · rintro ⟨hi, hj, hk⟩; exact ⟨k, hk, j, hj, i, hi, rfl, rfl, rfl⟩

theorem box_nodup (a b c : Nat) : (box a b c).Nodup := by
  rw [box, List.nodup_flatMap]
  refine ⟨fun k _ => ?_, ?_⟩
  · rw [List.nodup_flatMap]
    refine ⟨fun j _ => ?_, ?_⟩
    · exact List.nodup_range.map (fun x y h => by simpa using h)
    · refine List.nodup_range.imp ?_
      intro x y hxy
      rw [Function.onFun, List.disjoint_left]
      intro p hp hq
      simp only [List.mem_map] at hp hq
      obtain ⟨_, _, rfl⟩ := hp
      obtain ⟨_, _, h⟩ := hq
      simp only [Prod.mk.injEq] at h
      exact hxy h.2.1.symm
  · refine List.nodup_range.imp ?_
    intro x y hxy
    rw [Function.onFun, List.disjoint_left]
    intro p hp hq
    simp only [List.mem_flatMap, List.mem_map] at hp hq
    obtain ⟨_, _, _, _, rfl⟩ := hp
    obtain ⟨_, _, _, _, h⟩ := hq
    simp only [Prod.mk.injEq] at h
    exact hxy h.2.2.symm

theorem range_box (a b c : Nat) :
    List.range (a * b * c) = (box a b c).map (fun o => o.1 + a * (o.2.1 + b * o.2.2)) := by
  rw [Nat.mul_assoc, range_mul a (b * c), range_mul b c, box]
  simp only [List.map_flatMap, List.flatMap_map, List.map_map, List.flatMap_assoc]
  rfl

theorem div_mod_lin {a i j : Nat} (h : i < a) : (i + a * j) / a = j ∧ (i + a * j) % a = i := by
  have ha : 0 < a := by omega
  rw [Nat.add_mul_div_left _ _ ha, Nat.div_eq_of_lt h, Nat.add_mul_mod_self_left, Nat.mod_eq_of_lt h]
  exact ⟨by omega, rfl⟩

/-! ## Picking -/

theorem takeAt_ok (data : List Nat) : ∀ (idx : List Nat) (xs : List Nat), idx.map (fun i => data[i]?) = xs.map some →
    takeAt data idx = .ok xs
  | [], [], _ => rfl
  | [], _ :: _, h => by simp at h
  | _ :: _, [], h => by simp at h
  | i :: is, x :: xs, h => by
    simp only [List.map_cons, List.cons.injEq] at h
    rw [takeAt, h.1, takeAt_ok data is xs h.2]

theorem takeAt_range (pre r post : List Nat) :
    takeAt (pre ++ r ++ post) ((List.range r.length).map (fun i => pre.length + i)) = .ok r := by
  apply takeAt_ok
  apply List.ext_getElem
  · simp
  · intro n h1 h2
    simp only [List.length_map, List.length_range] at h1 h2
    simp only [List.getElem_map, List.getElem_range, List.append_assoc]
    rw [List.getElem?_append_right (by omega), Nat.add_sub_cancel_left,
      List.getElem?_append_left h1, List.getElem?_eq_getElem h1]

/-- the wedge order -/
def wedgeSwap : List Nat → List Nat
  | [a, b, c, d, e, f] => [a, c, b, d, f, e]
  | r => r

/-- the written order of the nodes of a cell -/
def ordered (w : Bool) (r : List Nat) : List Nat := if w then wedgeSwap r else r

theorem six {r : List Nat} (h : r.length = 6) : ∃ a b c d e f, r = [a, b, c, d, e, f] := by
  match r, h with
  | [a, b, c, d, e, f], _ => exact ⟨a, b, c, d, e, f, rfl⟩

theorem ordered_length (w : Bool) (r : List Nat) (h : w = true → r.length = 6) : (ordered w r).length = r.length := by
  cases w with
  | false => rfl
  | true => obtain ⟨a, b, c, d, e, f, rfl⟩ := six (h rfl); rfl

theorem takeAt_order (w : Bool) (r : List Nat) (h : w = true → r.length = 6) (pre post : List Nat) :
    takeAt (pre ++ ordered w r ++ post) ((nodeOrder w r.length).map (fun i => pre.length + i)) = .ok r := by
  cases w with
  | false => exact takeAt_range pre r post
  | true =>
    obtain ⟨a, b, c, d, e, f, rfl⟩ := six (h rfl)
    apply takeAt_ok
    simp only [nodeOrder, ordered, if_true, wedgeSwap, List.map_cons, List.map_nil, List.append_assoc]
    simp

theorem takeAt_write (w : Bool) (r : List Nat) (h : w = true → r.length = 6) :
    takeAt r (nodeOrder w r.length) = .ok (ordered w r) := by
  cases w with
  | false => simpa [nodeOrder, ordered] using takeAt_range [] r []
  | true => obtain ⟨a, b, c, d, e, f, rfl⟩ := six (h rfl); rfl

/-! ## Packed connectivity -/

/-- the written numbers of a list of cells (type, nodes) -/
def packed : List (Nat × List Nat) → List Nat
  | [] => []
  | (t, r) :: cs => r.length :: ordered (t = 13) r ++ packed cs

/-- a cell that can be written and read: its type has a fixed number of nodes -/
def CellOk (c : Nat × List Nat) : Prop := numNodes c.1 = .ok (c.2.length : Int) ∧ 0 < c.2.length

theorem CellOk.wedge {c : Nat × List Nat} (h : CellOk c) : decide (c.1 = 13) = true → c.2.length = 6 := by
  intro h13
  have h13 := of_decide_eq_true h13
  have := h.1
  rw [h13] at this
  have h6 : numNodes 13 = .ok 6 := rfl
  rw [h6] at this
  injection this with this
  omega

theorem nodesOf_packed : ∀ cs : List (Nat × List Nat), (∀ c ∈ cs, CellOk c) →
    nodesOf (cs.map Prod.fst) = .ok (cs.map (fun c => c.2.length))
  | [], _ => rfl
  | c :: cs, h => by
    have hc := h c List.mem_cons_self
    rw [List.map_cons, nodesOf, hc.1, nodesOf_packed cs (fun x hx => h x (List.mem_cons_of_mem _ hx))]
    have : (0 : Int) < (c.2.length : Int) := by have := hc.2; omega
    simp only [if_pos this, Int.toNat_natCast, List.map_cons]

theorem packed_heads : ∀ (cs : List (Nat × List Nat)) (pre : List Nat), (∀ c ∈ cs, decide (c.1 = 13) = true → c.2.length = 6) →
    takeAt (pre ++ packed cs) (offsetsFrom pre.length (cs.map (fun c => c.2.length))) = .ok (cs.map (fun c => c.2.length))
  | [], _, _ => rfl
  | (t, r) :: cs, pre, h => by
    have hc := h (t, r) List.mem_cons_self
    have hl := ordered_length (t = 13) r hc
    have ih := packed_heads cs (pre ++ r.length :: ordered (t = 13) r) (fun x hx => h x (List.mem_cons_of_mem _ hx))
    simp only [List.length_append, List.length_cons, hl] at ih
    simp only [List.map_cons, offsetsFrom, takeAt, packed]
    rw [List.getElem?_append_right (Nat.le_refl _), Nat.sub_self]
    simp only [List.cons_append, List.getElem?_cons_zero]
    rw [show pre ++ r.length :: (ordered (t = 13) r ++ packed cs) = (pre ++ r.length :: ordered (t = 13) r) ++ packed cs by simp,
      show pre.length + r.length + 1 = pre.length + (r.length + 1) by omega, ih]

theorem packed_rows : ∀ (cs : List (Nat × List Nat)) (pre : List Nat), (∀ c ∈ cs, decide (c.1 = 13) = true → c.2.length = 6) →
    rowsAt (pre ++ packed cs) ((cs.map Prod.fst).zip ((cs.map (fun c => c.2.length)).zip
      (offsetsFrom pre.length (cs.map (fun c => c.2.length))))) = .ok cs
  | [], _, _ => rfl
  | (t, r) :: cs, pre, h => by
    have hc := h (t, r) List.mem_cons_self
    have hl := ordered_length (t = 13) r hc
    have ih := packed_rows cs (pre ++ r.length :: ordered (t = 13) r) (fun x hx => h x (List.mem_cons_of_mem _ hx))
    simp only [List.length_append, List.length_cons, hl] at ih
    have ht := takeAt_order (t = 13) r hc (pre ++ [r.length]) (packed cs)
    simp only [List.length_append, List.length_cons, List.length_nil] at ht
    simp only [List.map_cons, offsetsFrom, List.zip_cons_cons, rowsAt, packed]
    rw [show pre ++ (r.length :: ordered (t = 13) r ++ packed cs) = pre ++ [r.length] ++ ordered (t = 13) r ++ packed cs by simp]
    rw [show (fun i => pre.length + 1 + i) = (fun i => pre.length + (0 + 1) + i) by simp, ht]
    rw [show pre ++ [r.length] ++ ordered (t = 13) r ++ packed cs = (pre ++ r.length :: ordered (t = 13) r) ++ packed cs by simp,
      show pre.length + r.length + 1 = pre.length + (r.length + 1) by omega, ih]

theorem translate_packed (cs : List (Nat × List Nat)) (field : List β) (hne : cs ≠ []) (h : ∀ c ∈ cs, CellOk c) :
    translate (packed cs) (cs.map Prod.fst) field =
      .ok (runs cs, pieces field ((runs cs).map (fun b => b.2.length))) := by
  have hw : ∀ c ∈ cs, decide (c.1 = 13) = true → c.2.length = 6 := fun c hc => (h c hc).wedge
  have h1 := packed_heads cs [] hw
  have h2 := packed_rows cs [] hw
  rw [List.nil_append] at h1 h2
  rw [List.length_nil] at h1 h2
  rw [translate, nodesOf_packed cs h]
  simp only [h1, ne_eq, not_true_eq_false, if_false, List.map_eq_nil_iff, hne, h2]

/-! ## Runs and pieces -/

/-- the items of grouped blocks, one by one -/
def ungroup (bs : List (κ × List α)) : List (κ × α) := bs.flatMap (fun b => b.2.map (fun x => (b.1, x)))

/-- neighbouring blocks have different keys -/
def Separated : List (κ × List α) → Prop
  | [] => True
  | [_] => True
  | a :: b :: r => a.1 ≠ b.1 ∧ Separated (b :: r)

theorem ungroup_runs [DecidableEq κ] : ∀ l : List (κ × α), ungroup (runs l) = l
  | [] => rfl
  | (t, x) :: r => by
    have ih := ungroup_runs r
    rw [runs]
    cases hr : runs r with
    | nil => rw [hr] at ih; rw [← ih]; rfl
    | cons b bs =>
      obtain ⟨t', xs⟩ := b
      rw [hr] at ih
      simp only
      by_cases ht : t = t'
      · subst ht
        rw [if_pos rfl, ← ih]; rfl
      · rw [if_neg ht, ← ih]; rfl

theorem runs_head [DecidableEq κ] (t : κ) (x : α) (r : List (κ × α)) :
    ∃ xs bs, runs ((t, x) :: r) = (t, xs) :: bs := by
  rw [runs]
  cases runs r with
  | nil => exact ⟨_, _, rfl⟩
  | cons b bs =>
    obtain ⟨t', xs⟩ := b
    simp only
    by_cases ht : t = t'
    · rw [if_pos ht]; exact ⟨_, _, rfl⟩
    · rw [if_neg ht]; exact ⟨_, _, rfl⟩

theorem separated_cons {a : κ × List α} {bs : List (κ × List α)} (h : Separated bs) (hd : ∀ b ∈ bs.head?, a.1 ≠ b.1) :
    Separated (a :: bs) := by
  cases bs with
  | nil => trivial
  | cons b r => exact ⟨hd b rfl, h⟩

theorem separated_runs [DecidableEq κ] : ∀ l : List (κ × α), Separated (runs l)
  | [] => trivial
  | (t, x) :: r => by
    have ih := separated_runs r
    rw [runs]
    cases hr : runs r with
    | nil => trivial
    | cons b bs =>
      obtain ⟨t', xs⟩ := b
      rw [hr] at ih
      simp only
      by_cases ht : t = t'
      · subst ht
        rw [if_pos rfl]
        cases bs with
        | nil => trivial
        | cons b2 r2 => exact ih
      · rw [if_neg ht]; exact ⟨ht, ih⟩

theorem nonempty_runs [DecidableEq κ] : ∀ l : List (κ × α), ∀ b ∈ runs l, b.2 ≠ []
  | [], b, hb => by simp [runs] at hb
  | (t, x) :: r, b, hb => by
    have ih := nonempty_runs r
    rw [runs] at hb
    cases hr : runs r with
    | nil =>
      rw [hr] at hb
      simp only [List.mem_singleton] at hb
      subst hb; simp
    | cons b' bs =>
      obtain ⟨t', xs⟩ := b'
      rw [hr] at hb ih
      simp only at hb
      by_cases ht : t = t'
      · rw [if_pos ht] at hb
        rcases List.mem_cons.1 hb with rfl | hb
        · simp
        · exact ih b (List.mem_cons_of_mem _ hb)
      · rw [if_neg ht] at hb
        rcases List.mem_cons.1 hb with rfl | hb
        · simp
        · exact ih b hb

theorem pieces_flatten : ∀ (d : List β) (ns : List Nat), d.length = ns.sum → (pieces d ns).flatten = d
  | d, [], h => by simp at h; simp [pieces, h]
  | d, n :: ns, h => by
    rw [pieces, List.flatten_cons, pieces_flatten (d.drop n) ns (by simp at h ⊢; omega), List.take_append_drop]

theorem pieces_lengths : ∀ (d : List β) (ns : List Nat), d.length = ns.sum → (pieces d ns).map List.length = ns
  | d, [], h => rfl
  | d, n :: ns, h => by
    rw [pieces, List.map_cons, pieces_lengths (d.drop n) ns (by simp at h ⊢; omega), List.length_take]
    congr 1
    simp at h; omega

theorem ungroup_length (bs : List (κ × List α)) : (ungroup bs).length = (bs.map (fun b => b.2.length)).sum := by
  induction bs with
  | nil => rfl
  | cons b r ih =>
    simp only [ungroup, List.flatMap_cons, List.length_append, List.length_map, List.map_cons, List.sum_cons] at ih ⊢
    omega

/-- blocks of the same grouping are equal: the grouping is determined by the items -/
theorem separated_unique [DecidableEq κ] : ∀ (as bs : List (κ × List α)), Separated as → Separated bs →
    (∀ b ∈ as, b.2 ≠ []) → (∀ b ∈ bs, b.2 ≠ []) → ungroup as = ungroup bs → as = bs := by
  have key : ∀ (as : List (κ × List α)), Separated as → (∀ b ∈ as, b.2 ≠ []) → runs (ungroup as) = as := by
    intro as
    induction as with
    | nil => intros; rfl
    | cons a r ih =>
      intro hs hn
      obtain ⟨t, xs⟩ := a
      have hsr : Separated r := by
        cases r with
        | nil => trivial
        | cons b r' => exact hs.2
      have ih := ih hsr (fun b hb => hn b (List.mem_cons_of_mem _ hb))
      have hxs : xs ≠ [] := hn (t, xs) List.mem_cons_self
      have step : ∀ (ys : List α), ys ≠ [] → runs (ys.map (fun x => (t, x)) ++ ungroup r) = (t, ys) :: r := by
        intro ys
        induction ys with
        | nil => intro h; exact absurd rfl h
        | cons y ys ihy =>
          intro _
          rw [List.map_cons, List.cons_append, runs]
          by_cases hy : ys = []
          · subst hy
            rw [List.map_nil, List.nil_append, ih]
            cases r with
            | nil => rfl
            | cons b r' =>
              obtain ⟨t', zs⟩ := b
              simp only
              rw [if_neg hs.1]
          · rw [ihy hy]
            simp only [if_true]
      exact step xs hxs
  intro as bs h1 h2 h3 h4 h
  rw [← key as h1 h3, ← key bs h2 h4, h]

/-! ## Writing blocks -/

/-- the cells of blocks, one by one, with their VTK type -/
def cellsOf (code : Name → Nat) (bs : List Block) : List (Nat × List Nat) :=
  bs.flatMap (fun b => b.rows.map (fun r => (code b.name, r)))

theorem packed_append (a b : List (Nat × List Nat)) : packed (a ++ b) = packed a ++ packed b := by
  induction a with
  | nil => rfl
  | cons c cs ih => obtain ⟨t, r⟩ := c; simp only [List.cons_append, packed, ih, List.append_assoc]

theorem code_tab13 {nm : Name} {c : Nat} (h : nm.code = .ok c) : decide (nm = .tab 13) = decide (c = 13) := by
  cases nm with
  | tab k =>
    rw [Name.code] at h
    by_cases hk : k ∈ typeTable.map Prod.fst
    · rw [if_pos hk] at h; injection h with h; subst h
      simp
    · rw [if_neg hk] at h; exact nomatch h
  | poly n => rw [Name.code] at h; injection h with h; subst h; simp

theorem blockData_eq (b : Block) (c : Nat) (hc : b.name.code = .ok c) : ∀ rows : List (List Nat),
    (∀ r ∈ rows, r.length = b.width) → (c = 13 → b.width = 6) →
    blockData b rows = .ok (packed (rows.map (fun r => (c, r))))
  | [], _, _ => rfl
  | r :: rs, h, h6 => by
    have hr := h r List.mem_cons_self
    have hw : decide (b.name = .tab 13) = true → r.length = 6 := by
      intro hd; rw [code_tab13 hc] at hd; rw [hr]; exact h6 (of_decide_eq_true hd)
    rw [blockData, ← hr, takeAt_write _ r hw, blockData_eq b c hc rs (fun x hx => h x (List.mem_cons_of_mem _ hx)) h6,
      code_tab13 hc]
    rfl

theorem writeCells_eq (code : Name → Nat) : ∀ bs : List Block,
    (∀ b ∈ bs, b.name.code = .ok (code b.name) ∧ (∀ r ∈ b.rows, r.length = b.width) ∧ (code b.name = 13 → b.width = 6)) →
    writeCells bs = .ok (packed (cellsOf code bs), (cellsOf code bs).map Prod.fst)
  | [], _ => rfl
  | b :: bs, h => by
    obtain ⟨h1, h2, h3⟩ := h b List.mem_cons_self
    rw [writeCells, h1, blockData_eq b _ h1 b.rows h2 h3, writeCells_eq code bs (fun x hx => h x (List.mem_cons_of_mem _ hx))]
    simp only [cellsOf, List.flatMap_cons, packed_append, List.map_append, List.map_map]
    congr 2
    simp only [Function.comp_def, List.map_const']

/-! ## Polygons -/

theorem polyWalk_packed : ∀ (cs : List (Nat × List Nat)) (pre : List Nat), (∀ c ∈ cs, decide (c.1 = 13) = true → c.2.length = 6) →
    polyWalk (pre ++ packed cs) cs.length pre.length =
      .ok ((cs.map (fun c => c.2.length)).zip (offsetsFrom pre.length (cs.map (fun c => c.2.length))))
  | [], _, _ => rfl
  | (t, r) :: cs, pre, h => by
    have hc := h (t, r) List.mem_cons_self
    have hl := ordered_length (t = 13) r hc
    have ih := polyWalk_packed cs (pre ++ r.length :: ordered (t = 13) r) (fun x hx => h x (List.mem_cons_of_mem _ hx))
    simp only [List.length_append, List.length_cons, hl] at ih
    simp only [List.length_cons, polyWalk, packed]
    rw [List.getElem?_append_right (Nat.le_refl _), Nat.sub_self]
    simp only [List.cons_append, List.getElem?_cons_zero]
    rw [show pre ++ r.length :: (ordered (t = 13) r ++ packed cs) = (pre ++ r.length :: ordered (t = 13) r) ++ packed cs by simp,
      show pre.length + r.length + 1 = pre.length + (r.length + 1) by omega, ih]
    rfl

/-- the name read for a cell of a polygonal mesh -/
def nameOf (c : Nat × List Nat) : Name := if c.1 = 7 then .poly c.2.length else .tab c.1

theorem polyRows_packed : ∀ (cs : List (Nat × List Nat)) (pre : List Nat), (∀ c ∈ cs, decide (c.1 = 13) = true → c.2.length = 6) →
    (∀ c ∈ cs, c.1 ∈ typeTable.map Prod.fst) →
    polyRows (pre ++ packed cs) ((cs.map Prod.fst).zip ((cs.map (fun c => c.2.length)).zip
      (offsetsFrom pre.length (cs.map (fun c => c.2.length))))) = .ok (cs.map (fun c => (nameOf c, c.2)))
  | [], _, _, _ => rfl
  | (t, r) :: cs, pre, h, hk => by
    have hc := h (t, r) List.mem_cons_self
    have hl := ordered_length (t = 13) r hc
    have ih := polyRows_packed cs (pre ++ r.length :: ordered (t = 13) r) (fun x hx => h x (List.mem_cons_of_mem _ hx))
      (fun x hx => hk x (List.mem_cons_of_mem _ hx))
    simp only [List.length_append, List.length_cons, hl] at ih
    have ht := takeAt_order (t = 13) r hc (pre ++ [r.length]) (packed cs)
    simp only [List.length_append, List.length_cons, List.length_nil] at ht
    have htk : t ∈ typeTable.map Prod.fst := hk (t, r) List.mem_cons_self
    simp only [List.map_cons, offsetsFrom, List.zip_cons_cons, polyRows, packed]
    rw [show pre ++ (r.length :: ordered (t = 13) r ++ packed cs) = pre ++ [r.length] ++ ordered (t = 13) r ++ packed cs by simp]
    rw [show (fun i => pre.length + 1 + i) = (fun i => pre.length + (0 + 1) + i) by simp, ht]
    rw [show pre ++ [r.length] ++ ordered (t = 13) r ++ packed cs = (pre ++ r.length :: ordered (t = 13) r) ++ packed cs by simp,
      show pre.length + r.length + 1 = pre.length + (r.length + 1) by omega, ih]
    simp only [polyName, if_pos htk, nameOf]

theorem translatePoly_packed (cs : List (Nat × List Nat)) (h : ∀ c ∈ cs, decide (c.1 = 13) = true → c.2.length = 6)
    (hk : ∀ c ∈ cs, c.1 ∈ typeTable.map Prod.fst) :
    translatePoly (packed cs) (cs.map Prod.fst) = .ok (runs (cs.map (fun c => (nameOf c, c.2)))) := by
  have h1 := polyWalk_packed cs [] h
  have h2 := polyRows_packed cs [] h hk
  rw [List.nil_append, List.length_nil] at h1 h2
  rw [translatePoly, List.length_map, h1]
  simp only [h2]

end Verif.Vtk
