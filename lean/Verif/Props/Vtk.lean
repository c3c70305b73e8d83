import Verif.Lemmas.Vtk
import Verif.Py.Dec
/-!
# Properties of VTK files

C37 generated cells of structured grids, C38 unstructured cells, C61 meshes with
polygons.
-/
namespace Verif.Vtk
open Verif.Py

/-! ## C37: structured grids -/

/-- number of the grid point `(i, j, k)` of an `nx × ny × nz` grid in the order of
`_generate_points` (`C37_points`) -/
def pointNo (nx ny : Nat) (o : Nat × Nat × Nat) : Nat := o.1 + nx * (o.2.1 + ny * o.2.2)

/-- the grid cells, by their lowest corner: along a direction with a single point there
is one position -/
def gridCells (nx ny nz : Nat) : List (Nat × Nat × Nat) := box (max (nx - 1) 1) (max (ny - 1) 1) (max (nz - 1) 1)

/-- steps to the corners in a direction with `n` points -/
def steps (n : Nat) : List Nat := if 1 < n then [0, 1] else [0]

/-- the corner points of the grid cell at `o` -/
def cornersOf (nx ny nz : Nat) (o : Nat × Nat × Nat) : List Nat :=
  (steps nz).flatMap fun c => (steps ny).flatMap fun b => (steps nx).map fun a =>
    pointNo nx ny (o.1 + a, o.2.1 + b, o.2.2 + c)

/-- the points of the grid: the point of number `pointNo` is the one at `(i, j, k)` -/
theorem C37_points (xs ys zs : List α) (i j k : Nat) (hi : i < xs.length) (hj : j < ys.length) (hk : k < zs.length) :
    (genPoints xs ys zs)[pointNo xs.length ys.length (i, j, k)]? = some (xs[i], ys[j], zs[k]) ∧
    (genPoints xs ys zs).length = xs.length * ys.length * zs.length := by
  have block : ∀ {γ δ : Type _} (n : Nat) (f : γ → List δ) (hf : ∀ x, (f x).length = n) (l : List γ) (a b : Nat) (ha : a < n) (hb : b < l.length),
      (l.flatMap f)[a + n * b]? = (f l[b])[a]? ∧ (l.flatMap f).length = n * l.length := by
    intro γ δ n f hf l
    induction l with
    | nil => intro a b _ hb; simp at hb
    | cons x l ih =>
      intro a b ha hb
      have hlen : ((x :: l).flatMap f).length = n * (x :: l).length := by
        have : ∀ l : List γ, (l.flatMap f).length = n * l.length := by
          intro l; induction l with
          | nil => simp
          | cons y l ih => rw [List.flatMap_cons, List.length_append, ih, hf, List.length_cons]; ring
        exact this _
      refine ⟨?_, hlen⟩
      rw [List.flatMap_cons]
      cases b with
      | zero => rw [List.getElem?_append_left (by rw [hf]; omega)]; simp
      | succ b =>
        rw [List.getElem?_append_right (by rw [hf, Nat.mul_succ]; omega), hf]
        have hb' : b < l.length := by simpa using hb
        rw [show a + n * (b + 1) - n = a + n * b by rw [Nat.mul_succ]; omega, (ih a b ha hb').1]
        simp
  have inner : ∀ z, ∀ y, ((xs.map (fun x => (x, y, z))) : List (α × α × α)).length = xs.length := by intro z y; simp
  have mid : ∀ z, (ys.flatMap (fun y => xs.map (fun x => (x, y, z)))).length = xs.length * ys.length :=
    fun z => (block xs.length (fun y => xs.map (fun x => (x, y, z))) (inner z) ys i j hi hj).2
  have hij : i + xs.length * j < xs.length * ys.length := by
    calc i + xs.length * j < xs.length + xs.length * j := by omega
      _ = xs.length * (j + 1) := by ring
      _ ≤ xs.length * ys.length := Nat.mul_le_mul_left _ hj
  have outer := block (xs.length * ys.length) (fun z => ys.flatMap (fun y => xs.map (fun x => (x, y, z)))) mid zs _ k hij hk
  refine ⟨?_, outer.2⟩
  rw [genPoints, show pointNo xs.length ys.length (i, j, k) = i + xs.length * j + xs.length * ys.length * k by
    simp only [pointNo]; ring, outer.1, (block xs.length (fun y => xs.map (fun x => (x, y, zs[k]))) (inner _) ys i j hi hj).1]
  simp [hi]

example : (genPoints [10, 11, 12] [20, 21] [30, 31])[pointNo 3 2 (2, 1, 1)]? = some (12, 21, 31) ∧
    (genPoints [10, 11, 12] [20, 21] [30, 31]).length = 3 * 2 * 2 :=
  C37_points [10, 11, 12] [20, 21] [30, 31] 2 1 1 (by decide) (by decide) (by decide)

/-- the corners of a grid cell are points of the grid -/
theorem corners_lt {nx ny nz : Nat} (hx : 1 ≤ nx) (hy : 1 ≤ ny) (hz : 1 ≤ nz) {o : Nat × Nat × Nat}
    (ho : o ∈ gridCells nx ny nz) : ∀ p ∈ cornersOf nx ny nz o, p < nx * ny * nz := by
  obtain ⟨i, j, k⟩ := o
  rw [gridCells, mem_box] at ho
  intro p hp
  simp only [cornersOf, List.mem_flatMap, List.mem_map] at hp
  obtain ⟨c, hc, b, hb, a, ha, rfl⟩ := hp
  have bound : ∀ {n x s : Nat}, 1 ≤ n → s ∈ steps n → x < max (n - 1) 1 → x + s ≤ n - 1 := by
    intro n x s hn hs hx
    rw [steps] at hs
    by_cases h : 1 < n
    · rw [if_pos h] at hs
      simp only [List.mem_cons, List.not_mem_nil, or_false] at hs
      omega
    · rw [if_neg h] at hs
      simp only [List.mem_singleton] at hs
      omega
  have h1 := bound hx ha ho.1
  have h2 := bound hy hb ho.2.1
  have h3 := bound hz hc ho.2.2
  simp only [pointNo]
  calc i + a + nx * (j + b + ny * (k + c))
      ≤ (nx - 1) + nx * ((ny - 1) + ny * (nz - 1)) :=
        Nat.add_le_add h1 (Nat.mul_le_mul_left _ (Nat.add_le_add h2 (Nat.mul_le_mul_left _ h3)))
    _ < nx * ny * nz := by
        obtain ⟨x, rfl⟩ : ∃ x, nx = x + 1 := ⟨nx - 1, by omega⟩
        obtain ⟨y, rfl⟩ : ∃ y, ny = y + 1 := ⟨ny - 1, by omega⟩
        obtain ⟨z, rfl⟩ : ∃ z, nz = z + 1 := ⟨nz - 1, by omega⟩
        simp only [Nat.add_sub_cancel]
        have : (x + 1) * (y + 1) * (z + 1) = x + (x + 1) * (y + (y + 1) * z) + 1 := by ring
        omega

/-- C37 fails on the smallest grid: one point gives an IndexError -/
theorem C37_fails : genCells [1, 1, 1] = .error .index := rfl

private theorem perm4 (a b c d : Nat) : [a, b, d, c].Perm [a, b, c, d] :=
  .cons _ (.cons _ (.swap _ _ _))

private theorem perm8 (a b c d e f g h : Nat) : [a, b, d, c, e, f, h, g].Perm [a, b, c, d, e, f, g, h] :=
  .trans (.cons _ (.cons _ (.swap _ _ _))) (.cons _ (.cons _ (.cons _ (.cons _ (.cons _ (.cons _ (.swap _ _ _)))))))

/-- rows described by the positions of a box -/
private theorem rows_box (a b c : Nat) (row : Nat → List Nat) (Q : List Nat → Nat × Nat × Nat → Prop)
    (h : ∀ i j k, i < a → j < b → k < c → Q (row (i + a * (j + b * k))) (i, j, k)) :
    List.Forall₂ Q ((List.range (a * b * c)).map row) (box a b c) := by
  rw [range_box, List.map_map]
  have : ∀ l : List (Nat × Nat × Nat), (∀ o ∈ l, o.1 < a ∧ o.2.1 < b ∧ o.2.2 < c) →
      List.Forall₂ Q (l.map (row ∘ fun o => o.1 + a * (o.2.1 + b * o.2.2))) l := by
    intro l
    induction l with
    | nil => intro _; exact .nil
    | cons o l ih =>
      intro hl
      have ho := hl o List.mem_cons_self
      exact .cons (h o.1 o.2.1 o.2.2 ho.1 ho.2.1 ho.2.2) (ih (fun x hx => hl x (List.mem_cons_of_mem _ hx)))
  exact this _ (fun o ho => mem_box.1 (by simpa using ho))

/-- what is asked of the row of a grid cell: the number of corners, then the corners -/
def RowOk (nx ny nz : Nat) (row : List Nat) (o : Nat × Nat × Nat) : Prop :=
  ∃ c, row = c.length :: c ∧ c.Perm (cornersOf nx ny nz o)

/-- **C37** for every grid with at least two points: the rows are, one for one, the grid
cells, each with its corner points, which are points of the grid; no cell is listed
twice and none is missing. (Missing for the full property: the grid of one point, see
`C37_fails`.) -/
theorem C37_partial (nx ny nz : Nat) (hx : 1 ≤ nx) (hy : 1 ≤ ny) (hz : 1 ≤ nz) (h : 1 < nx * ny * nz) :
    ∃ rows types, genCells [nx, ny, nz] = .ok (rows, types) ∧ types.length = rows.length ∧
      List.Forall₂ (RowOk nx ny nz) rows (gridCells nx ny nz) ∧
      (gridCells nx ny nz).Nodup ∧
      (∀ i j k, (i, j, k) ∈ gridCells nx ny nz ↔
        (i + 1 < nx ∨ (nx = 1 ∧ i = 0)) ∧ (j + 1 < ny ∨ (ny = 1 ∧ j = 0)) ∧ (k + 1 < nz ∨ (nz = 1 ∧ k = 0))) ∧
      (∀ row ∈ rows, ∀ p ∈ row.tail, p < nx * ny * nz) := by
  suffices hmain : ∃ rows types, genCells [nx, ny, nz] = .ok (rows, types) ∧ types.length = rows.length ∧
      List.Forall₂ (RowOk nx ny nz) rows (gridCells nx ny nz) by
    obtain ⟨rows, types, h1, h2, h3⟩ := hmain
    refine ⟨rows, types, h1, h2, h3, box_nodup _ _ _, ?_, ?_⟩
    · intro i j k
      rw [gridCells, mem_box]
      omega
    · have hall : ∀ o ∈ gridCells nx ny nz, ∀ p ∈ cornersOf nx ny nz o, p < nx * ny * nz :=
        fun o ho => corners_lt hx hy hz ho
      clear h1 h2
      generalize gridCells nx ny nz = g at h3 hall
      intro row hrow
      induction h3 with
      | nil => simp at hrow
      | cons hr _ ih =>
        rcases List.mem_cons.1 hrow with rfl | hrow
        · obtain ⟨c, rfl, hc⟩ := hr
          intro p hp
          exact hall _ List.mem_cons_self p (hc.mem_iff.1 hp)
        · exact ih (fun o ho => hall o (List.mem_cons_of_mem _ ho)) hrow
  by_cases h1 : 1 < nx <;> by_cases h2 : 1 < ny <;> by_cases h3 : 1 < nz
  · obtain ⟨m0, rfl⟩ : ∃ m, nx = m + 1 := ⟨nx - 1, by omega⟩
    obtain ⟨m1, rfl⟩ : ∃ m, ny = m + 1 := ⟨ny - 1, by omega⟩
    obtain ⟨m2, rfl⟩ : ∃ m, nz = m + 1 := ⟨nz - 1, by omega⟩
    refine ⟨(List.range (m0 * m1 * m2)).map (cell3 m0 m1), List.replicate (m0 * m1 * m2) 12, ?_, by simp, ?_⟩
    · simp [genCells, h1, h2, h3]
    · rw [gridCells, show max (m0 + 1 - 1) 1 = m0 by omega, show max (m1 + 1 - 1) 1 = m1 by omega,
        show max (m2 + 1 - 1) 1 = m2 by omega]
      apply rows_box
      intro i j k hi hj hk
      have he : i + m0 * (j + m1 * k) = i + m0 * j + (m0 * m1) * k := by ring
      have hij : i + m0 * j < m0 * m1 := by
        calc i + m0 * j < m0 + m0 * j := by omega
          _ = m0 * (j + 1) := by ring
          _ ≤ m0 * m1 := Nat.mul_le_mul_left _ hj
      have hd := div_mod_lin (j := k) hij
      have hd2 := div_mod_lin (j := j) hi
      have hbase : i + m0 * (j + m1 * k) + (m0 + m1 + 1) * k + j = i + (m0 + 1) * (j + (m1 + 1) * k) := by ring
      refine ⟨[pointNo (m0 + 1) (m1 + 1) (i, j, k), pointNo (m0 + 1) (m1 + 1) (i + 1, j, k),
          pointNo (m0 + 1) (m1 + 1) (i + 1, j + 1, k), pointNo (m0 + 1) (m1 + 1) (i, j + 1, k),
          pointNo (m0 + 1) (m1 + 1) (i, j, k + 1), pointNo (m0 + 1) (m1 + 1) (i + 1, j, k + 1),
          pointNo (m0 + 1) (m1 + 1) (i + 1, j + 1, k + 1), pointNo (m0 + 1) (m1 + 1) (i, j + 1, k + 1)], ?_, ?_⟩
      · have hq : (i + m0 * (j + m1 * k)) / (m0 * m1) = k := by rw [he]; exact hd.1
        have hr : (i + m0 * (j + m1 * k)) % (m0 * m1) / m0 = j := by rw [he, hd.2]; exact hd2.1
        simp only [cell3, hq, hr, hbase, pointNo, List.length_cons, List.length_nil, List.cons.injEq, and_true]
        refine ⟨trivial, trivial, by ring, ?_, ?_, by ring, by ring, ?_, ?_⟩
        · ring
        · apply Nat.sub_eq_of_eq_add; ring
        · ring
        · apply Nat.sub_eq_of_eq_add; ring
      · simp only [cornersOf, steps, h1, h2, h3, if_true, List.flatMap_cons, List.flatMap_nil, List.map_cons, List.map_nil,
          List.append_nil, List.cons_append, List.nil_append, Nat.add_zero]
        exact perm8 _ _ _ _ _ _ _ _
  · obtain ⟨m0, rfl⟩ : ∃ m, nx = m + 1 := ⟨nx - 1, by omega⟩
    obtain ⟨m1, rfl⟩ : ∃ m, ny = m + 1 := ⟨ny - 1, by omega⟩
    obtain rfl : nz = 1 := by omega
    refine ⟨(List.range (m0 * m1)).map (cell2 m0), List.replicate (m0 * m1) 9, ?_, by simp, ?_⟩
    · simp [genCells, h1, h2]
    · rw [gridCells, show max (m0 + 1 - 1) 1 = m0 by omega, show max (m1 + 1 - 1) 1 = m1 by omega,
        show max (1 - 1) 1 = 1 by omega, ← Nat.mul_one (m0 * m1)]
      apply rows_box
      intro i j k hi hj hk
      obtain rfl : k = 0 := by omega
      have hd := div_mod_lin (j := j) hi
      refine ⟨[pointNo (m0 + 1) (m1 + 1) (i, j, 0), pointNo (m0 + 1) (m1 + 1) (i + 1, j, 0),
          pointNo (m0 + 1) (m1 + 1) (i + 1, j + 1, 0), pointNo (m0 + 1) (m1 + 1) (i, j + 1, 0)], ?_, ?_⟩
      · simp only [cell2, Nat.mul_zero, Nat.add_zero, hd.1, pointNo, List.length_cons, List.length_nil, List.cons.injEq, and_true]
        refine ⟨trivial, by ring, by ring, by ring, ?_⟩
        apply Nat.sub_eq_of_eq_add; ring
      · simp only [cornersOf, steps, h1, h2, if_true, List.flatMap_cons, List.flatMap_nil, List.map_cons, List.map_nil,
          List.append_nil, List.cons_append, List.nil_append, Nat.add_zero, Nat.lt_irrefl, if_false]
        exact perm4 _ _ _ _
  · obtain ⟨m0, rfl⟩ : ∃ m, nx = m + 1 := ⟨nx - 1, by omega⟩
    obtain ⟨m2, rfl⟩ : ∃ m, nz = m + 1 := ⟨nz - 1, by omega⟩
    obtain rfl : ny = 1 := by omega
    refine ⟨(List.range (m0 * m2)).map (cell2 m0), List.replicate (m0 * m2) 9, ?_, by simp, ?_⟩
    · simp [genCells, h1, h3]
    · rw [gridCells, show max (m0 + 1 - 1) 1 = m0 by omega, show max (m2 + 1 - 1) 1 = m2 by omega,
        show max (1 - 1) 1 = 1 by omega, show m0 * m2 = m0 * 1 * m2 by ring]
      apply rows_box
      intro i j k hi hj hk
      obtain rfl : j = 0 := by omega
      have hd := div_mod_lin (j := k) hi
      refine ⟨[pointNo (m0 + 1) 1 (i, 0, k), pointNo (m0 + 1) 1 (i + 1, 0, k),
          pointNo (m0 + 1) 1 (i + 1, 0, k + 1), pointNo (m0 + 1) 1 (i, 0, k + 1)], ?_, ?_⟩
      · simp only [cell2, Nat.zero_add, Nat.one_mul, hd.1, pointNo, List.length_cons, List.length_nil, List.cons.injEq, and_true]
        refine ⟨trivial, by ring, by ring, by ring, ?_⟩
        apply Nat.sub_eq_of_eq_add; ring
      · simp only [cornersOf, steps, h1, h3, if_true, List.flatMap_cons, List.flatMap_nil, List.map_cons, List.map_nil,
          List.append_nil, List.cons_append, List.nil_append, Nat.add_zero, Nat.lt_irrefl, if_false]
        exact perm4 _ _ _ _
  · obtain ⟨m0, rfl⟩ : ∃ m, nx = m + 1 := ⟨nx - 1, by omega⟩
    obtain rfl : ny = 1 := by omega
    obtain rfl : nz = 1 := by omega
    refine ⟨(List.range m0).map cell1, List.replicate m0 3, ?_, by simp, ?_⟩
    · simp [genCells, h1]
    · rw [gridCells, show max (m0 + 1 - 1) 1 = m0 by omega, show max (1 - 1) 1 = 1 by omega,
        show m0 = m0 * 1 * 1 by ring]
      rw [show box (m0 * 1 * 1) 1 1 = box m0 1 1 by simp]
      apply rows_box
      intro i j k hi hj hk
      obtain rfl : j = 0 := by omega
      obtain rfl : k = 0 := by omega
      refine ⟨[pointNo (m0 + 1) 1 (i, 0, 0), pointNo (m0 + 1) 1 (i + 1, 0, 0)], ?_, ?_⟩
      · simp [cell1, pointNo]
      · simp [cornersOf, steps, h1, pointNo]
  · obtain ⟨m1, rfl⟩ : ∃ m, ny = m + 1 := ⟨ny - 1, by omega⟩
    obtain ⟨m2, rfl⟩ : ∃ m, nz = m + 1 := ⟨nz - 1, by omega⟩
    obtain rfl : nx = 1 := by omega
    refine ⟨(List.range (m1 * m2)).map (cell2 m1), List.replicate (m1 * m2) 9, ?_, by simp, ?_⟩
    · simp [genCells, h2, h3]
    · rw [gridCells, show max (m1 + 1 - 1) 1 = m1 by omega, show max (m2 + 1 - 1) 1 = m2 by omega,
        show max (1 - 1) 1 = 1 by omega, show m1 * m2 = 1 * m1 * m2 by ring]
      apply rows_box
      intro i j k hi hj hk
      obtain rfl : i = 0 := by omega
      have hd := div_mod_lin (j := k) hj
      refine ⟨[pointNo 1 (m1 + 1) (0, j, k), pointNo 1 (m1 + 1) (0, j + 1, k),
          pointNo 1 (m1 + 1) (0, j + 1, k + 1), pointNo 1 (m1 + 1) (0, j, k + 1)], ?_, ?_⟩
      · simp only [cell2, Nat.zero_add, Nat.one_mul, hd.1, pointNo, List.length_cons, List.length_nil, List.cons.injEq, and_true]
        refine ⟨trivial, by ring, by ring, by ring, ?_⟩
        apply Nat.sub_eq_of_eq_add; ring
      · simp only [cornersOf, steps, h2, h3, if_true, List.flatMap_cons, List.flatMap_nil, List.map_cons, List.map_nil,
          List.append_nil, List.cons_append, List.nil_append, Nat.add_zero, Nat.lt_irrefl, if_false]
        exact perm4 _ _ _ _
  · obtain ⟨m1, rfl⟩ : ∃ m, ny = m + 1 := ⟨ny - 1, by omega⟩
    obtain rfl : nx = 1 := by omega
    obtain rfl : nz = 1 := by omega
    refine ⟨(List.range m1).map cell1, List.replicate m1 3, ?_, by simp, ?_⟩
    · simp [genCells, h2]
    · rw [gridCells, show max (m1 + 1 - 1) 1 = m1 by omega, show max (1 - 1) 1 = 1 by omega,
        show (List.range m1).map cell1 = (List.range (1 * m1 * 1)).map cell1 by simp]
      apply rows_box
      intro i j k hi hj hk
      obtain rfl : i = 0 := by omega
      obtain rfl : k = 0 := by omega
      refine ⟨[pointNo 1 (m1 + 1) (0, j, 0), pointNo 1 (m1 + 1) (0, j + 1, 0)], ?_, ?_⟩
      · simp [cell1, pointNo]
      · simp [cornersOf, steps, h2, pointNo]
  · obtain ⟨m2, rfl⟩ : ∃ m, nz = m + 1 := ⟨nz - 1, by omega⟩
    obtain rfl : nx = 1 := by omega
    obtain rfl : ny = 1 := by omega
    refine ⟨(List.range m2).map cell1, List.replicate m2 3, ?_, by simp, ?_⟩
    · simp [genCells, h3]
    · rw [gridCells, show max (m2 + 1 - 1) 1 = m2 by omega, show max (1 - 1) 1 = 1 by omega,
        show (List.range m2).map cell1 = (List.range (1 * 1 * m2)).map cell1 by simp]
      apply rows_box
      intro i j k hi hj hk
      obtain rfl : i = 0 := by omega
      obtain rfl : j = 0 := by omega
      refine ⟨[pointNo 1 1 (0, 0, k), pointNo 1 1 (0, 0, k + 1)], ?_, ?_⟩
      · simp [cell1, pointNo]
      · simp [cornersOf, steps, h3, pointNo]
  · exfalso
    obtain rfl : nx = 1 := by omega
    obtain rfl : ny = 1 := by omega
    obtain rfl : nz = 1 := by omega
    simp at h

example : ∃ rows types, genCells [3, 2, 2] = .ok (rows, types) ∧ rows = [[8, 0, 1, 4, 3, 6, 7, 10, 9], [8, 1, 2, 5, 4, 7, 8, 11, 10]] ∧
    types = [12, 12] ∧ gridCells 3 2 2 = [(0, 0, 0), (1, 0, 0)] := ⟨_, _, rfl, rfl, rfl, rfl⟩

example : 1 ≤ 3 ∧ 1 ≤ 1 ∧ 1 ≤ 4 ∧ 1 < 3 * 1 * 4 := by decide

/-- the node order inside a hexahedron: round the bottom, then round the top -/
theorem C37_hexahedron (m0 m1 m2 i j k : Nat) (hi : i < m0) (hj : j < m1) (hk : k < m2) :
    let p := fun a b c => pointNo (m0 + 1) (m1 + 1) (a, b, c)
    ∃ rows types, genCells [m0 + 1, m1 + 1, m2 + 1] = .ok (rows, types) ∧
      rows[i + m0 * (j + m1 * k)]? = some [8, p i j k, p (i + 1) j k, p (i + 1) (j + 1) k, p i (j + 1) k,
        p i j (k + 1), p (i + 1) j (k + 1), p (i + 1) (j + 1) (k + 1), p i (j + 1) (k + 1)] ∧
      types[i + m0 * (j + m1 * k)]? = some 12 := by
  intro p
  refine ⟨(List.range (m0 * m1 * m2)).map (cell3 m0 m1), List.replicate (m0 * m1 * m2) 12, ?_, ?_⟩
  · have h1 : 1 < m0 + 1 := by omega
    have h2 : 1 < m1 + 1 := by omega
    have h3 : 1 < m2 + 1 := by omega
    simp [genCells, h1, h2, h3]
  · have he : i + m0 * (j + m1 * k) = i + m0 * j + (m0 * m1) * k := by ring
    have hij : i + m0 * j < m0 * m1 := by
      calc i + m0 * j < m0 + m0 * j := by omega
        _ = m0 * (j + 1) := by ring
        _ ≤ m0 * m1 := Nat.mul_le_mul_left _ hj
    have hd := div_mod_lin (j := k) hij
    have hd2 := div_mod_lin (j := j) hi
    have hlt : i + m0 * (j + m1 * k) < m0 * m1 * m2 := by
      rw [he]
      calc i + m0 * j + m0 * m1 * k < m0 * m1 + m0 * m1 * k := by omega
        _ = m0 * m1 * (k + 1) := by ring
        _ ≤ m0 * m1 * m2 := Nat.mul_le_mul_left _ hk
    have hbase : i + m0 * (j + m1 * k) + (m0 + m1 + 1) * k + j = i + (m0 + 1) * (j + (m1 + 1) * k) := by ring
    have hq : (i + m0 * (j + m1 * k)) / (m0 * m1) = k := by rw [he]; exact hd.1
    have hr : (i + m0 * (j + m1 * k)) % (m0 * m1) / m0 = j := by rw [he, hd.2]; exact hd2.1
    rw [List.getElem?_map, List.getElem?_range hlt, List.getElem?_replicate, if_pos hlt]
    refine ⟨?_, rfl⟩
    simp only [Option.map_some, p, cell3, hq, hr, hbase, pointNo, Option.some.injEq, List.cons.injEq, and_true]
    refine ⟨trivial, trivial, by ring, by ring, ?_, by ring, by ring, by ring, ?_⟩
    · apply Nat.sub_eq_of_eq_add; ring
    · apply Nat.sub_eq_of_eq_add; ring

example : (1 : Nat) < 2 ∧ (0 : Nat) < 1 ∧ (2 : Nat) < 3 := by decide

/-! ## C38: unstructured cells -/

/-- the cell types with a fixed number of nodes: VTK type and number of nodes -/
def fixedTypes : List (Nat × Nat) :=
  [(1, 1), (3, 2), (5, 3), (9, 4), (10, 4), (12, 8), (13, 6), (14, 5), (15, 10), (16, 12), (21, 3), (22, 6), (23, 8),
   (24, 10), (25, 20), (26, 15), (27, 13), (28, 9), (29, 27), (30, 6), (31, 12), (32, 18), (33, 24), (34, 7), (35, 4)]

/-- a block whose cells have a fixed number of nodes -/
def FixedBlock (b : Block) : Prop :=
  ∃ c, b.name = .tab c ∧ (c, b.width) ∈ fixedTypes ∧ ∀ r ∈ b.rows, r.length = b.width

/-- the cells of blocks, one by one -/
def allCells (bs : List Block) : List (Name × List Nat) := bs.flatMap (fun b => b.rows.map (fun r => (b.name, r)))

/-- written cells and their reading -/
def writeRead (bs : List Block) (field : List β) : Except Err (List (Name × List (List Nat)) × Option (List (List β))) :=
  match writeCells bs with
  | .error e => .error e
  | .ok (data, types) => readCells data types field

/-- C38 fails for a mesh without cells (IndexError) -/
theorem C38_empty_fails : writeRead [] ([] : List Nat) = .error .index := by decide +kernel

/-- C38 fails for the known types without a fixed number of nodes in the table: what was
written for `pixel` is refused -/
theorem C38_pixel_fails : (writeCells [⟨.tab 8, 4, [[0, 1, 2, 3]]⟩] = .ok ([4, 0, 1, 2, 3], [8])) ∧
    writeRead [⟨.tab 8, 4, [[0, 1, 2, 3]]⟩] ([] : List Nat) = .error .read := by decide +kernel

/-- ... and for `VTK_LAGRANGE_CURVE` the table is too short (IndexError) -/
theorem C38_lagrange_fails : (writeCells [⟨.tab 68, 3, [[0, 1, 2]]⟩] = .ok ([3, 0, 1, 2], [68])) ∧
    writeRead [⟨.tab 68, 3, [[0, 1, 2]]⟩] ([] : List Nat) = .error .index := by decide +kernel

private theorem fixed_table : ∀ p ∈ fixedTypes, numNodes p.1 = .ok (p.2 : Int) ∧ 0 < p.2 ∧ p.1 ∈ typeTable.map Prod.fst ∧
    p.1 ≠ 7 ∧ (p.1 = 13 → p.2 = 6) := by decide +kernel

/-- **C38**, the table of cell types: codes and names determine each other, all fixed-size types are
in it -/
theorem C38_types : (typeTable.map Prod.fst).Nodup ∧ (typeTable.map Prod.snd).Nodup ∧
    ∀ p ∈ fixedTypes, ∃ n, (p.1, n) ∈ typeTable := by
  refine ⟨by decide +kernel, by decide +kernel, ?_⟩
  intro p hp
  obtain ⟨q, hq, e⟩ := List.mem_map.1 (fixed_table p hp).2.2.1
  exact ⟨q.2, by rw [← e]; exact hq⟩

/-- VTK type of a name -/
private def codeOf : Name → Nat
  | .tab c => c
  | .poly _ => 7

private theorem fixed_write (bs : List Block) (h : ∀ b ∈ bs, FixedBlock b) :
    writeCells bs = .ok (packed (cellsOf codeOf bs), (cellsOf codeOf bs).map Prod.fst) := by
  apply writeCells_eq
  intro b hb
  obtain ⟨c, hn, hc, hr⟩ := h b hb
  obtain ⟨_, _, h3, _, h5⟩ := fixed_table _ hc
  refine ⟨?_, hr, ?_⟩
  · rw [hn, Name.code, if_pos h3, codeOf]
  · rw [hn]; exact h5

private theorem runs_map {κ κ' : Type} [DecidableEq κ] [DecidableEq κ'] (f : κ → κ') (hf : ∀ a b, f a = f b → a = b) :
    ∀ l : List (κ × α), (runs l).map (fun b => (f b.1, b.2)) = runs (l.map (fun c => (f c.1, c.2)))
  | [] => rfl
  | (t, x) :: r => by
    have ih := runs_map f hf r
    rw [List.map_cons, runs, runs, ← ih]
    cases runs r with
    | nil => rfl
    | cons b bs =>
      obtain ⟨t', xs⟩ := b
      simp only [List.map_cons]
      by_cases ht : t = t'
      · rw [if_pos ht, if_pos (by rw [ht])]; rfl
      · rw [if_neg ht, if_neg (fun h => ht (hf _ _ h))]; rfl

/-- **C38** for meshes with at least one cell and cell types with a fixed number of nodes:
writing and reading gives the same cells in the same order with the same nodes, in blocks
of consecutive cells of one type; the cell data are cut in the same places. (Missing for
the full property: no cells, and the types of the failing cases above.) -/
theorem C38_partial (bs : List Block) (h : ∀ b ∈ bs, FixedBlock b) (hne : allCells bs ≠ []) (field : List β)
    (hf : field.length = (allCells bs).length) :
    ∃ out fs, writeRead bs field = .ok (out, some fs) ∧ ungroup out = allCells bs ∧ Separated out ∧ (∀ b ∈ out, b.2 ≠ []) ∧
      fs.flatten = field ∧ fs.map List.length = out.map (fun b => b.2.length) := by
  have hw := fixed_write bs h
  have hcells : ∀ c ∈ cellsOf codeOf bs, CellOk c ∧ c.1 ≠ 7 := by
    intro c hc
    simp only [cellsOf, List.mem_flatMap, List.mem_map] at hc
    obtain ⟨b, hb, r, hr, rfl⟩ := hc
    obtain ⟨t, hn, ht, hl⟩ := h b hb
    obtain ⟨h1, h2, h3, h4, _⟩ := fixed_table _ ht
    rw [hn]
    refine ⟨⟨?_, ?_⟩, h4⟩
    · rw [hl r hr]; exact h1
    · rw [hl r hr]; exact h2
  have hall : (cellsOf codeOf bs).map (fun c => (Name.tab c.1, c.2)) = allCells bs := by
    rw [cellsOf, allCells, List.map_flatMap]
    have : ∀ l : List Block, (∀ b ∈ l, FixedBlock b) → (l.flatMap fun a => (a.rows.map fun r => (codeOf a.name, r)).map fun c => (Name.tab c.1, c.2)) =
        l.flatMap fun b => b.rows.map fun r => (b.name, r) := by
      intro l
      induction l with
      | nil => intro _; rfl
      | cons b l ih =>
        intro hl
        obtain ⟨t, hn, -, -⟩ := hl b List.mem_cons_self
        rw [List.flatMap_cons, List.flatMap_cons, ih (fun x hx => hl x (List.mem_cons_of_mem _ hx)), List.map_map, hn]
        rfl
    exact this bs h
  have hc0 : cellsOf codeOf bs ≠ [] := by
    intro h0; rw [h0] at hall; exact hne hall.symm
  have h7 : ¬ 7 ∈ (cellsOf codeOf bs).map Prod.fst := by
    intro hm
    obtain ⟨c, hc, h7⟩ := List.mem_map.1 hm
    exact (hcells c hc).2 h7
  have ht := translate_packed (cellsOf codeOf bs) field hc0 (fun c hc => (hcells c hc).1)
  have hrm := runs_map Name.tab (fun a b h => by injection h) (cellsOf codeOf bs)
  rw [hall] at hrm
  have hlen : field.length = ((runs (cellsOf codeOf bs)).map (fun b => b.2.length)).sum := by
    rw [hf, ← hall, List.length_map, ← ungroup_length, ungroup_runs]
  refine ⟨runs (allCells bs), pieces field ((runs (cellsOf codeOf bs)).map (fun b => b.2.length)), ?_, ungroup_runs _, separated_runs _,
    nonempty_runs _, pieces_flatten _ _ hlen, ?_⟩
  · rw [writeRead, hw]
    simp only [readCells, if_neg h7, ht, hrm]
  · rw [pieces_lengths _ _ hlen, ← hrm, List.map_map]
    rfl

/-- **C38**, blocks as a mesh usually has them (none empty, neighbours of different type):
exactly the blocks are read back -/
theorem C38_blocks_partial (bs : List Block) (h : ∀ b ∈ bs, FixedBlock b) (hbs : bs ≠ []) (hrows : ∀ b ∈ bs, b.rows ≠ [])
    (hsep : Separated (bs.map (fun b => (b.name, b.rows)))) (field : List β) (hf : field.length = (allCells bs).length) :
    ∃ fs, writeRead bs field = .ok (bs.map (fun b => (b.name, b.rows)), some fs) ∧
      fs.flatten = field ∧ fs.map List.length = bs.map (fun b => b.rows.length) := by
  have hung : ungroup (bs.map (fun b => (b.name, b.rows))) = allCells bs := by
    rw [ungroup, allCells, List.flatMap_map]
  have hne : allCells bs ≠ [] := by
    obtain ⟨b, r, rfl⟩ := List.exists_cons_of_ne_nil hbs
    obtain ⟨x, xs, hx⟩ := List.exists_cons_of_ne_nil (hrows b List.mem_cons_self)
    rw [allCells, List.flatMap_cons, hx]
    exact List.cons_ne_nil _ _
  obtain ⟨out, fs, h1, h2, h3, h4, h5, h6⟩ := C38_partial bs h hne field hf
  have heq : out = bs.map (fun b => (b.name, b.rows)) := by
    refine separated_unique _ _ h3 hsep h4 ?_ (h2.trans hung.symm)
    intro b hb
    obtain ⟨b', hb', rfl⟩ := List.mem_map.1 hb
    exact hrows b' hb'
  subst heq
  exact ⟨fs, h1, h5, by rw [h6, List.map_map]; rfl⟩

/-- a mesh of two triangles, a wedge and a quad -/
def meshEx : List Block :=
  [⟨.tab 5, 3, [[0, 1, 2], [2, 1, 3]]⟩, ⟨.tab 13, 6, [[0, 1, 2, 4, 5, 6]]⟩, ⟨.tab 9, 4, [[3, 4, 5, 6]]⟩]

example : ∀ b ∈ meshEx, FixedBlock b := by
  intro b hb
  simp only [meshEx, List.mem_cons, List.not_mem_nil, or_false] at hb
  rcases hb with rfl | rfl | rfl
  · exact ⟨5, rfl, by decide, by decide⟩
  · exact ⟨13, rfl, by decide, by decide⟩
  · exact ⟨9, rfl, by decide, by decide⟩
example : Separated (meshEx.map (fun b => (b.name, b.rows))) := ⟨by decide, by decide, trivial⟩
example : writeRead meshEx [10, 20, 30, 40] =
    .ok ([(.tab 5, [[0, 1, 2], [2, 1, 3]]), (.tab 13, [[0, 1, 2, 4, 5, 6]]), (.tab 9, [[3, 4, 5, 6]])],
      some [[10, 20], [30], [40]]) := by decide +kernel

/-! ## C61: meshes with polygons -/

/-- a block of a mesh with polygons: `polygon<n>` with `n` columns, or another known type -/
def PolyBlock (b : Block) : Prop :=
  (∀ r ∈ b.rows, r.length = b.width) ∧
  (b.name = .poly b.width ∨ ∃ c, b.name = .tab c ∧ c ∈ typeTable.map Prod.fst ∧ c ≠ 7 ∧ (c = 13 → b.width = 6))

/-- C61 fails: the cell data of a mesh with a polygon are dropped -/
theorem C61_fails : writeRead [⟨.poly 3, 3, [[0, 1, 2]]⟩] [5] = .ok ([(.poly 3, [[0, 1, 2]])], none) := by decide +kernel

/-- **C61** for the cells: a mesh with at least one polygon is read back with the same
cells, grouped in blocks of consecutive cells of one type (`polygon<n>` for each `n`).
(Missing for the full property: the cell data, see `C61_fails`.) -/
theorem C61_partial (bs : List Block) (h : ∀ b ∈ bs, PolyBlock b) (hp : ∃ b ∈ bs, b.name = .poly b.width ∧ b.rows ≠ [])
    (field : List β) :
    ∃ out, writeRead bs field = .ok (out, none) ∧ ungroup out = allCells bs ∧ Separated out ∧ (∀ b ∈ out, b.2 ≠ []) := by
  have hw : writeCells bs = .ok (packed (cellsOf codeOf bs), (cellsOf codeOf bs).map Prod.fst) := by
    apply writeCells_eq
    intro b hb
    obtain ⟨hr, hn⟩ := h b hb
    rcases hn with hn | ⟨c, hn, hc, _, h6⟩
    · refine ⟨by rw [hn]; rfl, hr, by rw [hn, codeOf]; intro h; omega⟩
    · refine ⟨by rw [hn, Name.code, if_pos hc, codeOf], hr, by rw [hn, codeOf]; exact h6⟩
  have hcells : ∀ c ∈ cellsOf codeOf bs, (decide (c.1 = 13) = true → c.2.length = 6) ∧ c.1 ∈ typeTable.map Prod.fst := by
    intro c hc
    simp only [cellsOf, List.mem_flatMap, List.mem_map] at hc
    obtain ⟨b, hb, r, hr, rfl⟩ := hc
    obtain ⟨hl, hn⟩ := h b hb
    rcases hn with hn | ⟨c, hn, hc, _, h6⟩
    · rw [hn]; exact ⟨by intro h; exact absurd (show (7 : Nat) = 13 from of_decide_eq_true h) (by decide), show 7 ∈ typeTable.map Prod.fst by decide⟩
    · rw [hn]
      refine ⟨fun h => ?_, hc⟩
      rw [hl r hr]; exact h6 (of_decide_eq_true h)
  have hall : (cellsOf codeOf bs).map (fun c => (nameOf c, c.2)) = allCells bs := by
    rw [cellsOf, allCells, List.map_flatMap]
    have : ∀ l : List Block, (∀ b ∈ l, PolyBlock b) → (l.flatMap fun a => (a.rows.map fun r => (codeOf a.name, r)).map fun c => (nameOf c, c.2)) =
        l.flatMap fun b => b.rows.map fun r => (b.name, r) := by
      intro l
      induction l with
      | nil => intro _; rfl
      | cons b l ih =>
        intro hl
        obtain ⟨hr, hn⟩ := hl b List.mem_cons_self
        rw [List.flatMap_cons, List.flatMap_cons, ih (fun x hx => hl x (List.mem_cons_of_mem _ hx)), List.map_map]
        congr 1
        apply List.map_congr_left
        intro r hrr
        rcases hn with hn | ⟨c, hn, _, h7, _⟩
        · rw [hn]; simp [codeOf, nameOf, hr r hrr]
        · rw [hn]; simp [codeOf, nameOf, h7]
    exact this bs h
  have h7 : 7 ∈ (cellsOf codeOf bs).map Prod.fst := by
    obtain ⟨b, hb, hn, hr⟩ := hp
    obtain ⟨x, xs, hx⟩ := List.exists_cons_of_ne_nil hr
    refine List.mem_map.2 ⟨(7, x), ?_, rfl⟩
    rw [cellsOf, List.mem_flatMap]
    exact ⟨b, hb, List.mem_map.2 ⟨x, by rw [hx]; exact List.mem_cons_self, by rw [hn]; rfl⟩⟩
  have ht := translatePoly_packed (cellsOf codeOf bs) (fun c hc => (hcells c hc).1) (fun c hc => (hcells c hc).2)
  rw [hall] at ht
  refine ⟨runs (allCells bs), ?_, ungroup_runs _, separated_runs _, nonempty_runs _⟩
  rw [writeRead, hw]
  simp only [readCells, if_pos h7, ht]

/-- triangles as polygons, a pentagon, a quad -/
def polyEx : List Block := [⟨.poly 3, 3, [[0, 1, 2], [2, 1, 3]]⟩, ⟨.poly 5, 5, [[0, 1, 2, 4, 5]]⟩, ⟨.tab 9, 4, [[3, 4, 5, 6]]⟩]

example : (∀ b ∈ polyEx, PolyBlock b) ∧ ∃ b ∈ polyEx, b.name = .poly b.width ∧ b.rows ≠ [] := by
  refine ⟨?_, ⟨.poly 3, 3, [[0, 1, 2], [2, 1, 3]]⟩, by decide, by decide, by decide⟩
  intro b hb
  simp only [polyEx, List.mem_cons, List.not_mem_nil, or_false] at hb
  rcases hb with rfl | rfl | rfl
  · exact ⟨by decide, .inl rfl⟩
  · exact ⟨by decide, .inl rfl⟩
  · exact ⟨by decide, .inr ⟨9, rfl, by decide, by decide, by decide⟩⟩
example : writeRead polyEx [1, 2, 3, 4] =
    .ok ([(.poly 3, [[0, 1, 2], [2, 1, 3]]), (.poly 5, [[0, 1, 2, 4, 5]]), (.tab 9, [[3, 4, 5, 6]])], none) := by
  decide +kernel

end Verif.Vtk
