import Mathlib.Data.Rat.Floor
import Mathlib.Tactic.Linarith
/-!
# Rational stand-ins for numpy conversions

`truncQ` is `astype(int)`; `single24` rounds to the 24 significant bits of an
IEEE `float32` (no overflow, no subnormals).
-/
namespace Verif.Py

/-- truncation towards zero of a rational -/
def truncQ (x : ℚ) : Int := if 0 ≤ x then ⌊x⌋ else -⌊-x⌋

theorem truncQ_err (x : ℚ) : |((truncQ x : Int) : ℚ) - x| ≤ 1 := by
  unfold truncQ
  split
  · have h1 := Int.floor_le x
    have h2 := Int.lt_floor_add_one x
    rw [abs_le]; constructor <;> linarith
  · have h1 := Int.floor_le (-x)
    have h2 := Int.lt_floor_add_one (-x)
    push_cast
    rw [abs_le]; constructor <;> linarith

theorem truncQ_err_lt (x : ℚ) : |((truncQ x : Int) : ℚ) - x| < 1 := by
  unfold truncQ
  split
  · have h1 := Int.floor_le x
    have h2 := Int.lt_floor_add_one x
    rw [abs_lt]; constructor <;> linarith
  · have h1 := Int.floor_le (-x)
    have h2 := Int.lt_floor_add_one (-x)
    push_cast
    rw [abs_lt]; constructor <;> linarith

theorem truncQ_int (z : Int) : truncQ (z : ℚ) = z := by
  unfold truncQ
  split
  · simp
  · rw [show (-(z : ℚ)) = ((-z : Int) : ℚ) by push_cast; ring, Int.floor_intCast]; ring

theorem truncQ_range (x : ℚ) (h1 : -32768 ≤ x) (h2 : x ≤ 32767) :
    -32768 ≤ truncQ x ∧ truncQ x < 32768 := by
  unfold truncQ
  split
  · rename_i h0
    have h3 : (0 : Int) ≤ ⌊x⌋ := Int.floor_nonneg.2 h0
    have h4 := Int.floor_le x
    have h5 : ⌊x⌋ < 32768 := by
      have : ((⌊x⌋ : Int) : ℚ) < ((32768 : Int) : ℚ) := by push_cast; linarith
      exact_mod_cast this
    omega
  · rename_i h0
    have h3 : (0 : Int) ≤ ⌊-x⌋ := Int.floor_nonneg.2 (by linarith)
    have h4 := Int.floor_le (-x)
    have h5 : ⌊-x⌋ ≤ 32768 := by
      have : ((⌊-x⌋ : Int) : ℚ) ≤ ((32768 : Int) : ℚ) := by push_cast; linarith
      exact_mod_cast this
    omega

/-- nearest integer, ties to even -/
def roundEven (x : ℚ) : Int :=
  let f := ⌊x⌋
  let d := x - f
  if d < 1 / 2 then f else if 1 / 2 < d then f + 1 else if f % 2 = 0 then f else f + 1

/-- `np.single` on numbers in the normal range: 24 significant bits, ties to
even. -/
def single24 (x : ℚ) : ℚ :=
  if x = 0 then 0
  else
    let a := |x|
    let e0 : Int := (a.num.toNat.log2 : Int) - a.den.log2
    let e := if a < (2 : ℚ) ^ e0 then e0 - 1 else e0
    let u := (2 : ℚ) ^ (e - 23)
    (if x < 0 then -1 else 1) * (roundEven (a / u) : ℚ) * u

end Verif.Py
