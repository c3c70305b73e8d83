import Mathlib.Data.Rat.Floor
/-!
# Step wind generator — `/repo/weio/fast_wind_file.py:56-84`

Exact rational numbers instead of floats; in particular the number of steps of `np.arange` is the
exact one.  The rounding function `np.around(·, 0)` is a parameter.
-/
namespace Verif.StepWind

/-- length of `np.arange(a, b, s)`, `s ≠ 0` -/
def arangeLen (a b s : ℚ) : Nat := ⌈(b - a) / s⌉.toNat

/-- `np.arange(a, b, s)` -/
def arange (a b s : ℚ) : List ℚ := (List.range (arangeLen a b s)).map fun (i : Nat) => a + i * s

/-- the argument `tstep`: a number, or something with a length of which `[0]` and `[1]` are used -/
inductive TStep where
  | num (t : ℚ)
  | pair (first last : ℚ)
deriving DecidableEq

/-- `np.linspace(a, b, n)[i]` -/
def linspaceAt (a b : ℚ) (n i : Nat) : ℚ := if n ≤ 1 then a else a + i * ((b - a) / (n - 1 : Nat))

/-- duration of each step (fast_wind_file.py:64-67) -/
def tsteps (rnd : ℚ → ℚ) (t : TStep) (n : Nat) : List ℚ :=
  match t with
  | .pair a b => (List.range n).map fun i => rnd (linspaceAt a b n i)
  | .num t => List.replicate n t

structure Args where
  WSstep : ℚ := 1
  WSmin : ℚ := 3
  WSmax : ℚ := 25
  tstep : TStep := .num 100
  dt : ℚ := 1 / 2
  tmin : ℚ := 0
  tmax : ℚ := 999

/-- the table `M` as a function of row and column -/
abbrev Mat := Nat → Nat → ℚ

/-- `M[r,c] = x` -/
def Mat.set (M : Mat) (r c : Nat) (x : ℚ) : Mat := fun r' c' => if r' = r ∧ c' = c then x else M r' c'

/-- body of the loop over the steps (fast_wind_file.py:74-81): table and current time; `i` runs
over all steps but the last -/
def body (S T : Nat → ℚ) (dt : ℚ) (n : Nat) (i : Nat) (st : Mat × ℚ) : Mat × ℚ :=
  let (M, tmin) := st
  let M := M.set (2 * i + 1) 0 (tmin + T i - dt)
  let M := M.set (2 * i + 2) 0 (tmin + T i)
  let tmin := tmin + T i
  let M := M.set (2 * i + 1) 1 (S i)
  let M := M.set (2 * i + 2) 1 (if i < n - 1 then S (i + 1) else S (n - 1))
  (M, tmin)

/-- the loop from the start to step `k` -/
def loop (S T : Nat → ℚ) (dt : ℚ) (n : Nat) (st : Mat × ℚ) : Nat → Mat × ℚ
  | 0 => st
  | k + 1 => body S T dt n k (loop S T dt n st k)

inductive Err where
  | zeroStep    -- `np.arange` with step 0
  | index       -- `M[0,0]` of a table without rows
deriving DecidableEq

/-- `stepWind` (fast_wind_file.py:56-84): the rows of the table, `nCol` columns.  Simplification:
`nCol ≥ 2`, as for the names set in `__init__` (line 29). -/
def stepWind (rnd : ℚ → ℚ) (nCol : Nat) (a : Args) : Except Err (List (List ℚ)) :=
  if a.WSstep = 0 then .error .zeroStep
  else
    let Steps := arange a.WSmin (a.WSmax + a.WSstep) a.WSstep
    let n := Steps.length
    let tst := tsteps rnd a.tstep n
    if n = 0 then .error .index
    else
      let S := fun i => Steps.getD i 0
      let T := fun i => tst.getD i 0
      let M : Mat := fun _ _ => 0
      let M := M.set 0 0 a.tmin
      let M := M.set 0 1 a.WSmin
      let (M, tmin) := loop S T a.dt n (M, a.tmin) (n - 1)
      let M := M.set (2 * n - 1) 0 (max a.tmax (tmin + T (n - 1)))
      let M := M.set (2 * n - 1) 1 a.WSmax
      .ok ((List.range (2 * n)).map fun r => (List.range nCol).map fun c => M r c)

end Verif.StepWind
