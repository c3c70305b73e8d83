import Verif.Model.St
import Mathlib.Algebra.Order.Field.Basic
import Mathlib.Algebra.BigOperators.Intervals
/-!
# The beam element of HAWC2 st files

`element_stiffnessmatrix` and `shape_function_ori` of `/repo/weio/wetb/hawc2/st_file.py`, with
exact arithmetic: rounding is not modelled, nor the infinities which numpy makes of a division by
zero (the theorems suppose that there is none).
-/
namespace Verif.St
open Verif.Py

/-- the properties used (st_file.py:180-181, 241-242) -/
structure Sec (F : Type) where
  /-- `x_sh` -/
  xs : F
  /-- `y_sh` -/
  ys : F
  /-- `E` -/
  E : F
  /-- `G` -/
  G : F
  /-- `I_x` -/
  Ix : F
  /-- `I_y` -/
  Iy : F
  /-- `I_p` -/
  Iz : F
  /-- `k_x` -/
  kx : F
  /-- `k_y` -/
  ky : F
  /-- `A` -/
  A : F
deriving DecidableEq, Repr

/-- `getattr(self, n)(radius, mset_nr, set_nr)` for the ten names (st_file.py:180-181) -/
def sectionAt (o : Obj ℚ) (x : ℚ) (m s : Int) : Except SErr (Sec ℚ) :=
  match (["x_sh", "y_sh", "E", "G", "I_x", "I_y", "I_p", "k_x", "k_y", "A"].map String.toList).mapM (fun n => query o n x m s) with
  | .error e => .error e
  | .ok [xs, ys, E, G, Ix, Iy, Iz, kx, ky, A] => .ok ⟨xs, ys, E, G, Ix, Iy, Iz, kx, ky, A⟩
  | .ok _ => .error .value

section
variable {F : Type} [Field F]

/-- `ETAX` (st_file.py:184) -/
def etaX (s : Sec F) (L : F) : F := s.E * s.Ix / (s.ky * s.G * s.A * L ^ 2)

/-- `ETAY` (st_file.py:185) -/
def etaY (s : Sec F) (L : F) : F := s.E * s.Iy / (s.kx * s.G * s.A * L ^ 2)

/-- `ROX` (st_file.py:186) -/
def roX (s : Sec F) (L : F) : F := 1 / (1 + 12 * etaX s L)

/-- `ROY` (st_file.py:187-188): computed with `ETAY`, then overwritten with `ETAX` -/
def roY (s : Sec F) (L : F) : F := 1 / (1 + 12 * etaX s L)

/-- `K[i, j]` as it is filled from its first entries (st_file.py:178, 189-230), `i` and `j` from 1 to 12 -/
def fill (k11 k15 k22 k24 k33 k44 k410 k55 k511 k66 xs ys : F) : Nat → Nat → F
  | 1, 1 => k11
  | 1, 5 => k15
  | 1, 6 => -k11 * ys
  | 1, 7 => -k11
  | 1, 11 => k15
  | 1, 12 => -(-k11 * ys)
  | 2, 2 => k22
  | 2, 4 => k24
  | 2, 6 => k22 * xs
  | 2, 8 => -k22
  | 2, 10 => k24
  | 2, 12 => -(k22 * xs)
  | 3, 3 => k33
  | 3, 9 => -k33
  | 4, 4 => k44
  | 4, 6 => k24 * xs
  | 4, 8 => -k24
  | 4, 10 => k410
  | 4, 12 => -(k24 * xs)
  | 5, 5 => k55
  | 5, 6 => -k15 * ys
  | 5, 7 => -k15
  | 5, 11 => k511
  | 5, 12 => -(-k15 * ys)
  | 6, 6 => k66
  | 6, 7 => -(-k11 * ys)
  | 6, 8 => -(k22 * xs)
  | 6, 10 => -(-(k24 * xs))
  | 6, 11 => -(-(-k15 * ys))
  | 6, 12 => -k66
  | 7, 7 => k11
  | 7, 11 => -k15
  | 7, 12 => -k11 * ys
  | 8, 8 => k22
  | 8, 10 => -k24
  | 8, 12 => k22 * xs
  | 9, 9 => k33
  | 10, 10 => k44
  | 10, 12 => -(k24 * xs)
  | 11, 11 => k55
  | 11, 12 => -(-k15 * ys)
  | 12, 12 => k66
  | _, _ => 0

/-- `K` (st_file.py:184-230) -/
def upper (s : Sec F) (L : F) : Nat → Nat → F :=
  fill (12 * s.E * s.Iy * roY s L / L ^ 3) (6 * s.E * s.Iy * roY s L / L ^ 2)
    (12 * s.E * s.Ix * roX s L / L ^ 3) (-6 * s.E * s.Ix * roX s L / L ^ 2) (s.A * s.E / L)
    (4 * s.E * s.Ix * (1 + 3 * etaX s L) * roX s L / L) (2 * s.E * s.Ix * (1 - 6 * etaX s L) * roX s L / L)
    (4 * s.E * s.Iy * (1 + 3 * etaY s L) * roY s L / L) (2 * s.E * s.Iy * (1 - 6 * etaY s L) * roY s L / L)
    (s.G * s.Iz / L + 12 * s.E * (s.Ix * s.xs ^ 2 * roX s L + s.Iy * s.ys ^ 2 * roY s L) / L ^ 3) s.xs s.ys

/-- `K + K.T - np.eye(12) * K` (st_file.py:232) -/
def symmetrize (K : Nat → Nat → F) (i j : Nat) : F := K i j + K j i - (if i = j then 1 else 0) * K i j

/-- the matrix returned (st_file.py:231-233), `i` and `j` from 1 to 12 -/
def stiff (s : Sec F) (L : F) : Nat → Nat → F := symmetrize (upper s L)

/-- `etax` of the shape functions (st_file.py:244) -/
def etaX' (s : Sec F) (L : F) : F := s.E * s.Ix / s.ky / s.G / s.A / L ^ 2

/-- `etay` of the shape functions (st_file.py:245) -/
def etaY' (s : Sec F) (L : F) : F := s.E * s.Iy / s.kx / s.G / s.A / L ^ 2

/-- `f3` and `f4` (st_file.py:251-252, 259-260): of `f1` and of `f2` -/
def shape3 (eta f : F) : F := f * (3 * f - 2 * f ^ 2 + 12 * eta) * (1 / (1 + 12 * eta))

/-- `f5` and `f6` (st_file.py:253-254, 261-262) -/
def shape5 (eta L f : F) : F := L * (f ^ 2 - (1 - 6 * eta) * f - 6 * eta) * f * (1 / (1 + 12 * eta))

/-- `f7` (st_file.py:255, 263) -/
def shape7 (eta L f1 f2 : F) : F := 6 / L * f1 * f2 * (1 / (1 + 12 * eta))

/-- `f8` and `f9` (st_file.py:256-257, 264-265) -/
def shape8 (eta f : F) : F := f * (3 * f - 2 * (1 - 6 * eta)) * (1 / (1 + 12 * eta))

/-- the twelve rows of six of `shape_function_ori` before the transposition (st_file.py:249-278): the
displacements and rotations at `z` for each of the twelve degrees of freedom -/
def shapeRows (s : Sec F) (L z : F) : List (List F) :=
  let ex := etaX' s L
  let ey := etaY' s L
  let f1 := z / L
  let f2 := 1 - f1
  let f3x := shape3 ex f1
  let f4x := shape3 ex f2
  let f5x := shape5 ex L f1
  let f6x := shape5 ex L f2
  let f7x := shape7 ex L f1 f2
  let f8x := shape8 ex f1
  let f9x := shape8 ex f2
  let f3y := shape3 ey f1
  let f4y := shape3 ey f2
  let f5y := shape5 ey L f1
  let f6y := shape5 ey L f2
  let f7y := shape7 ey L f1 f2
  let f8y := shape8 ey f1
  let f9y := shape8 ey f2
  [[f4y, 0, 0, 0, -f7y, 0],
   [0, f4x, 0, f7x, 0, 0],
   [0, 0, f2, 0, 0, 0],
   [0, f6x, 0, f9x, 0, 0],
   [-f6y, 0, 0, 0, f9y, 0],
   [(f2 - f4y) * s.ys, -(f2 - f4x) * s.xs, 0, f7x * s.xs, f7y * s.ys, f2],
   [f3y, 0, 0, 0, f7y, 0],
   [0, f3x, 0, -f7x, 0, 0],
   [0, 0, f1, 0, 0, 0],
   [0, -f5x, 0, f8x, 0, 0],
   [f5y, 0, 0, 0, f8y, 0],
   [(f1 - f3y) * s.ys, -(f1 - f3x) * s.xs, 0, -f7x * s.xs, -f7y * s.ys, f1]]

/-- the entry of the matrix returned: row `i` from 1 to 6, column `j` from 1 to 12 -/
def shape (s : Sec F) (L z : F) (i j : Nat) : F := ((shapeRows s L z).getD (j - 1) []).getD (i - 1) 0

end

/-- `element_stiffnessmatrix` (st_file.py:163-233): `none` for a file of 30 columns -/
def elementStiffness (o : Obj ℚ) (x : ℚ) (m s : Int) (L : ℚ) : Except SErr (Option (Nat → Nat → ℚ)) :=
  if o.cols.length = 30 then .ok none
  else
    match sectionAt o x m s with
    | .error e => .error e
    | .ok sec => .ok (some (stiff sec L))

end Verif.St
