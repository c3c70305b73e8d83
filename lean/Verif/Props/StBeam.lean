import Verif.Lemmas.StBeam
import Verif.Props.St
import Mathlib.Tactic
/-! # Properties of the beam element of HAWC2 st files -/
namespace Verif.St
open Verif.Py

/-- **C120** The stiffness matrix is symmetric. -/
theorem C120_symmetric {F : Type} [Field F] (s : Sec F) (L : F) (i j : Nat) : stiff s L i j = stiff s L j i := by
  unfold stiff symmetrize
  by_cases h : i = j
  · rw [h]
  · rw [if_neg h, if_neg (fun e => h e.symm)]
    ring

/-- **C120** A rigid displacement and a small rigid rotation of the element give no force. -/
theorem C120_rigid {F : Type} [Field F] (s : Sec F) (L : F) (hL : L ≠ 0) (a b c p q r : F) (i : Nat) (hi : 1 ≤ i ∧ i ≤ 12) :
    force (stiff s L) (rigid L a b c p q r) i = 0 := by
  obtain ⟨h1, h2', h3, h4, h5, h6, h7, h8, h9, h10, h11, h12⟩ := force_fill (12 * s.E * s.Iy * roY s L / L ^ 3) (6 * s.E * s.Iy * roY s L / L ^ 2)
    (12 * s.E * s.Ix * roX s L / L ^ 3) (-6 * s.E * s.Ix * roX s L / L ^ 2) (s.A * s.E / L)
    (4 * s.E * s.Ix * (1 + 3 * etaX s L) * roX s L / L) (2 * s.E * s.Ix * (1 - 6 * etaX s L) * roX s L / L)
    (4 * s.E * s.Iy * (1 + 3 * etaY s L) * roY s L / L) (2 * s.E * s.Iy * (1 - 6 * etaY s L) * roY s L / L)
    (s.G * s.Iz / L + 12 * s.E * (s.Ix * s.xs ^ 2 * roX s L + s.Iy * s.ys ^ 2 * roY s L) / L ^ 3) s.xs s.ys (rigid L a b c p q r)
  rw [show stiff s L = symmetrize (fill _ _ _ _ _ _ _ _ _ _ _ _) from rfl]
  obtain ⟨hi1, hi2⟩ := hi
  simp only [rigid] at h1 h2' h3 h4 h5 h6 h7 h8 h9 h10 h11 h12
  generalize roX s L = rx at *
  generalize roY s L = ry at *
  generalize etaX s L = ex at *
  generalize etaY s L = ey at *
  interval_cases i <;> (first | rw [h1] | rw [h2'] | rw [h3] | rw [h4] | rw [h5] | rw [h6] | rw [h7] | rw [h8] | rw [h9] | rw [h10] | rw [h11] | rw [h12]) <;>
    (field_simp; ring)

/-- **C121** For a section of positive properties, no displacement gives negative work, and only rigid
displacements and rotations give none. -/
theorem C121 (s : Sec ℚ) (hs : Positive s) (L : ℚ) (hL : 0 < L) (u : Nat → ℚ) :
    0 ≤ work (stiff s L) u ∧
    (work (stiff s L) u = 0 → ∀ i, 1 ≤ i ∧ i ≤ 12 → u i = rigid L (u 1) (u 2) (u 3) (u 4) (u 5) (u 6) i) := by
  obtain ⟨hE, hG, hx, hy, hz, hkx, hky, hA⟩ := hs
  rw [work_eq s L hL.ne' (by norm_num) u]
  have hex : 0 < etaX s L := by unfold etaX; positivity
  have hey : 0 < etaY s L := by unfold etaY; positivity
  have hrx : 0 < roX s L := by unfold roX; positivity
  have hry : 0 < roY s L := by unfold roY; positivity
  have c1 : 0 < s.A * s.E / L := by positivity
  have c2 : 0 < s.G * s.Iz / L := by positivity
  have c3 : 0 < s.E * s.Iy * roY s L / L := by positivity
  have c4 : 0 < s.E * s.Ix * roX s L / L := by positivity
  generalize s.A * s.E / L = C1 at *
  generalize s.G * s.Iz / L = C2 at *
  generalize s.E * s.Iy * roY s L / L = C3 at *
  generalize s.E * s.Ix * roX s L / L = C4 at *
  have t1 : 0 ≤ C1 * (u 9 - u 3) ^ 2 := by positivity
  have t2 : 0 ≤ C2 * (u 12 - u 6) ^ 2 := by positivity
  have t3 : 0 ≤ C3 * (12 * ((u 7 - u 1 - s.ys * (u 12 - u 6)) / L - (u 5 + u 11) / 2) ^ 2 + (1 + 12 * etaY s L) * (u 11 - u 5) ^ 2) := by positivity
  have t4 : 0 ≤ C4 * (12 * ((u 8 - u 2 + s.xs * (u 12 - u 6)) / L + (u 4 + u 10) / 2) ^ 2 + (1 + 12 * etaX s L) * (u 10 - u 4) ^ 2) := by positivity
  refine ⟨by linarith, fun h0 => ?_⟩
  have z1 : C1 * (u 9 - u 3) ^ 2 = 0 := by linarith
  have z2 : C2 * (u 12 - u 6) ^ 2 = 0 := by linarith
  have z3 : C3 * (12 * ((u 7 - u 1 - s.ys * (u 12 - u 6)) / L - (u 5 + u 11) / 2) ^ 2 + (1 + 12 * etaY s L) * (u 11 - u 5) ^ 2) = 0 := by linarith
  have z4 : C4 * (12 * ((u 8 - u 2 + s.xs * (u 12 - u 6)) / L + (u 4 + u 10) / 2) ^ 2 + (1 + 12 * etaX s L) * (u 10 - u 4) ^ 2) = 0 := by linarith
  have sq : ∀ C x : ℚ, 0 < C → C * x ^ 2 = 0 → x = 0 := by
    intro C x hC h
    rcases mul_eq_zero.1 h with h | h
    · exact absurd h hC.ne'
    · exact pow_eq_zero_iff (by norm_num) |>.1 h
  have sq2 : ∀ C D x y : ℚ, 0 < C → 0 < D → C * (12 * x ^ 2 + D * y ^ 2) = 0 → x = 0 ∧ y = 0 := by
    intro C D x y hC hD h
    rcases mul_eq_zero.1 h with h | h
    · exact absurd h hC.ne'
    · have h1 : 0 ≤ 12 * x ^ 2 := by positivity
      have h2 : 0 ≤ D * y ^ 2 := by positivity
      exact ⟨sq 12 x (by norm_num) (by linarith), sq D y hD (by linarith)⟩
  have e9 := sq _ _ c1 z1
  have e12 := sq _ _ c2 z2
  obtain ⟨e7, e11⟩ := sq2 _ _ _ _ c3 (by positivity) z3
  obtain ⟨e8, e10⟩ := sq2 _ _ _ _ c4 (by positivity) z4
  rw [e12] at e7 e8
  have f11 : u 11 = u 5 := by linarith
  have f10 : u 10 = u 4 := by linarith
  have f7 : u 7 = u 1 + u 5 * L := by
    rw [f11] at e7
    field_simp at e7
    linarith
  have f8 : u 8 = u 2 - u 4 * L := by
    rw [f10] at e8
    field_simp at e8
    linarith
  rintro i ⟨h1, h2⟩
  interval_cases i <;> simp only [rigid] <;> linarith

/-- **C122** is violated: the sideways stiffness along x is computed with the shear of the y direction.
The section is twice as stiff about y as about x. -/
theorem C122_fails : stiff (⟨0, 0, 1, 1, 1, 2, 1, 1, 1, 1⟩ : Sec ℚ) 1 1 1 = 24 / 13 ∧
    (1 : ℚ) / (1 ^ 3 / (12 * 1 * 2) + 1 / (1 * 1 * 1)) = 24 / 25 := by
  decide +kernel

/-- **C122** The sideways stiffness along y is the inverse of the sum of the bending and shear
flexibilities; the one along x is, when the ratios of inertia to shear factor agree. -/
theorem C122_partial (s : Sec ℚ) (hs : Positive s) (L : ℚ) (hL : 0 < L) :
    stiff s L 2 2 = 1 / (L ^ 3 / (12 * s.E * s.Ix) + L / (s.ky * s.G * s.A)) ∧
    (s.Ix * s.kx = s.Iy * s.ky → stiff s L 1 1 = 1 / (L ^ 3 / (12 * s.E * s.Iy) + L / (s.kx * s.G * s.A))) := by
  obtain ⟨hE, hG, hx, hy, hz, hkx, hky, hA⟩ := hs
  have hgen : ∀ I k : ℚ, 0 < I → 0 < k →
      12 * s.E * I * (1 / (1 + 12 * (s.E * I / (k * s.G * s.A * L ^ 2)))) / L ^ 3 = 1 / (L ^ 3 / (12 * s.E * I) + L / (k * s.G * s.A)) := by
    intro I k hI hk
    have : 1 + 12 * (s.E * I / (k * s.G * s.A * L ^ 2)) ≠ 0 := by positivity
    have : L ^ 3 / (12 * s.E * I) + L / (k * s.G * s.A) ≠ 0 := by positivity
    field_simp
  constructor
  · have : stiff s L 2 2 = 12 * s.E * s.Ix * roX s L / L ^ 3 := by
      simp [stiff, symmetrize, upper, fill]
    rw [this, ← hgen s.Ix s.ky hx hky]
    rfl
  · intro h
    have : stiff s L 1 1 = 12 * s.E * s.Iy * roY s L / L ^ 3 := by
      simp [stiff, symmetrize, upper, fill]
    have heta : etaX s L = etaY s L := by
      unfold etaX etaY
      have : s.Ix / s.ky = s.Iy / s.kx := by
        rw [div_eq_div_iff hky.ne' hkx.ne']
        exact h
      field_simp
      linarith
    rw [this, ← hgen s.Iy s.kx hy hkx, roY, heta]
    rfl

/-- **C120** The matrix of a file of 19 columns at the radius of a row is the one of the numbers of this row;
for a file of 30 columns there is none. -/
theorem C120_row (o : Obj ℚ) (m s : Int) (rows : List (List ℚ)) (h : BeamSet o m s rows) (r : List ℚ) (hr : r ∈ rows) (L : ℚ) :
    (o.cols = stc → elementStiffness o (r.getD 0 0) m s L = .ok (some (stiff
      ⟨r.getD 6 0, r.getD 7 0, r.getD 8 0, r.getD 9 0, r.getD 10 0, r.getD 11 0, r.getD 12 0, r.getD 13 0, r.getD 14 0, r.getD 15 0⟩ L))) ∧
    (o.cols = fpm → elementStiffness o (r.getD 0 0) m s L = .ok none) := by
  constructor
  · intro hc
    have hq : ∀ c name, stc[c]? = some name → query o name (r.getD 0 0) m s = .ok (r.getD c 0) :=
      fun c name hcn => query_node o m s rows h c name (by rw [hc]; exact hcn) r hr
    unfold elementStiffness sectionAt
    rw [if_neg (by rw [hc]; decide +kernel)]
    simp only [List.map_cons, List.map_nil, List.mapM_cons, List.mapM_nil, hq 6 "x_sh".toList (by decide +kernel),
      hq 7 "y_sh".toList (by decide +kernel), hq 8 "E".toList (by decide +kernel), hq 9 "G".toList (by decide +kernel),
      hq 10 "I_x".toList (by decide +kernel), hq 11 "I_y".toList (by decide +kernel), hq 12 "I_p".toList (by decide +kernel),
      hq 13 "k_x".toList (by decide +kernel), hq 14 "k_y".toList (by decide +kernel), hq 15 "A".toList (by decide +kernel)]
    rfl
  · intro hc
    unfold elementStiffness
    rw [if_pos (by rw [hc]; decide +kernel)]

/-- **C123** At the two ends, the shape functions give the displacements and rotations of the node. -/
theorem C123_ends (s : Sec ℚ) (hs : Positive s) (L : ℚ) (hL : 0 < L) (u : Nat → ℚ) (i : Nat) (hi : 1 ≤ i ∧ i ≤ 6) :
    (∑ j ∈ Finset.Icc 1 12, shape s L 0 i j * u j) = u i ∧ (∑ j ∈ Finset.Icc 1 12, shape s L L i j * u j) = u (i + 6) := by
  obtain ⟨hE, hG, hx, hy, hz, hkx, hky, hA⟩ := hs
  have hex : 0 < etaX' s L := by unfold etaX'; positivity
  have hey : 0 < etaY' s L := by unfold etaY'; positivity
  have a1 : ∀ e : ℚ, 0 < e → shape3 e 0 = 0 ∧ shape3 e 1 = 1 ∧ shape5 e L 0 = 0 ∧ shape5 e L 1 = 0 ∧ shape7 e L 0 1 = 0 ∧ shape7 e L 1 0 = 0 ∧
      shape8 e 0 = 0 ∧ shape8 e 1 = 1 := by
    intro e he
    have h12 : 1 + 12 * e ≠ 0 := by positivity
    refine ⟨?_, ?_, ?_, ?_, ?_, ?_, ?_, ?_⟩
    · simp [shape3]
    · unfold shape3; field_simp; ring
    · simp [shape5]
    · unfold shape5; field_simp; ring
    · simp [shape7]
    · simp [shape7]
    · simp [shape8]
    · unfold shape8; field_simp; ring
  obtain ⟨x1, x2, x3, x4, x5, x6, x7, x8⟩ := a1 _ hex
  obtain ⟨y1, y2, y3, y4, y5, y6, y7, y8⟩ := a1 _ hey
  have hLL : L / L = 1 := div_self hL.ne'
  rw [sum12, sum12]
  simp only [shape, shapeRows, zero_div, sub_zero, hLL, sub_self, x1, x2, x3, x4, x5, x6, x7, x8, y1, y2, y3, y4, y5, y6, y7, y8]
  obtain ⟨h1, h2⟩ := hi
  interval_cases i <;> simp

/-- **C123** A rigid displacement and a small rigid rotation are given at every point of the element. -/
theorem C123_rigid (s : Sec ℚ) (hs : Positive s) (L : ℚ) (hL : 0 < L) (z a b c p q r : ℚ) :
    (List.range 6).map (fun i => ∑ j ∈ Finset.Icc 1 12, shape s L z (i + 1) j * rigid L a b c p q r j) =
      [a + q * z, b - p * z, c, p, q, r] := by
  obtain ⟨hE, hG, hx, hy, hz, hkx, hky, hA⟩ := hs
  have hex : 1 + 12 * etaX' s L ≠ 0 := by unfold etaX'; positivity
  have hey : 1 + 12 * etaY' s L ≠ 0 := by unfold etaY'; positivity
  have hf : z / L + (1 - z / L) = 1 := by ring
  have x1 := shape_sum _ _ _ hex hf
  have x2 := shape_disp _ L _ _ hex hf
  have x3 := shape_rot _ L _ _ hex hL.ne' hf
  have y1 := shape_sum _ _ _ hey hf
  have y2 := shape_disp _ L _ _ hey hf
  have y3 := shape_rot _ L _ _ hey hL.ne' hf
  have hz : z / L * L = z := by field_simp
  rw [hz] at x2 y2
  simp only [sum12, shape, shapeRows, rigid]
  simp only [show List.range 6 = [0, 1, 2, 3, 4, 5] from rfl, List.map_cons, List.map_nil]
  generalize shape3 (etaX' s L) (z / L) = f3x at *
  generalize shape3 (etaX' s L) (1 - z / L) = f4x at *
  generalize shape5 (etaX' s L) L (z / L) = f5x at *
  generalize shape5 (etaX' s L) L (1 - z / L) = f6x at *
  generalize shape7 (etaX' s L) L (z / L) (1 - z / L) = f7x at *
  generalize shape8 (etaX' s L) (z / L) = f8x at *
  generalize shape8 (etaX' s L) (1 - z / L) = f9x at *
  generalize shape3 (etaY' s L) (z / L) = f3y at *
  generalize shape3 (etaY' s L) (1 - z / L) = f4y at *
  generalize shape5 (etaY' s L) L (z / L) = f5y at *
  generalize shape5 (etaY' s L) L (1 - z / L) = f6y at *
  generalize shape7 (etaY' s L) L (z / L) (1 - z / L) = f7y at *
  generalize shape8 (etaY' s L) (z / L) = f8y at *
  generalize shape8 (etaY' s L) (1 - z / L) = f9y at *
  congr 1
  · simp
    linear_combination (a - r * s.ys) * y1 + q * y2
  congr 1
  · simp
    linear_combination (b + r * s.xs) * x1 - p * x2
  congr 1
  · simp
    ring
  congr 1
  · simp
    linear_combination p * x3
  congr 1
  · simp
    linear_combination q * y3
  congr 1
  · simp
    ring

/-! Examples -/

/-- a section -/
def exSec : Sec ℚ := ⟨1 / 10, 2 / 10, 3, 2, 5, 7, 9, 1 / 2, 2 / 3, 4⟩

theorem exSecPos : Positive exSec := by unfold Positive exSec; norm_num

example : force (stiff exSec 2) (rigid 2 1 2 3 4 5 6) 6 = 0 := C120_rigid exSec 2 (by norm_num) 1 2 3 4 5 6 6 (by omega)

/-- pulling the second end does work -/
example : 0 ≤ work (stiff exSec 2) (fun i => if i = 9 then 1 else 0) := (C121 exSec exSecPos 2 (by norm_num) _).1

example : work (stiff exSec 2) (fun i => if i = 9 then 1 else 0) ≠ 0 := fun h => by
  have := (C121 exSec exSecPos 2 (by norm_num) _).2 h 9 (by omega)
  simp [rigid] at this

example : stiff exSec 2 2 2 = 1 / (2 ^ 3 / (12 * 3 * 5) + 2 / (2 / 3 * 2 * 4)) := (C122_partial exSec exSecPos 2 (by norm_num)).1

/-- a square section -/
example : stiff (⟨0, 0, 3, 2, 5, 5, 9, 1 / 2, 1 / 2, 4⟩ : Sec ℚ) 2 1 1 = 1 / (2 ^ 3 / (12 * 3 * 5) + 2 / (1 / 2 * 2 * 4)) :=
  (C122_partial _ (by unfold Positive; norm_num) 2 (by norm_num)).2 (by norm_num)

example : (∑ j ∈ Finset.Icc 1 12, shape exSec 2 2 1 j * (j : ℚ)) = 7 := (C123_ends exSec exSecPos 2 (by norm_num) (fun j => j) 1 (by omega)).2

/-- in the middle -/
example : (List.range 6).map (fun i => ∑ j ∈ Finset.Icc 1 12, shape exSec 2 1 (i + 1) j * rigid 2 1 2 3 4 5 6 j) = [6, -2, 3, 4, 5, 6] := by
  rw [C123_rigid exSec exSecPos 2 (by norm_num) 1 1 2 3 4 5 6]
  norm_num

example : ∃ K, elementStiffness exBeam 1 1 1 2 = .ok (some K) ∧ K 3 3 = 16 * 9 / 2 := by
  refine ⟨_, (C120_row exBeam 1 1 _ exBeamSet (nums19.map (fun n => (n : ℚ))) (by simp) 2).1 rfl, ?_⟩
  decide +kernel

end Verif.St
