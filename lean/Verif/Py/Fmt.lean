import Verif.Py.Str
import Verif.Py.Num
import Mathlib.Data.Int.Log
import Mathlib.Algebra.Order.Field.Rat
/-!
# Decimal formatting of a (finite) Python float

Python formats a float from its exact value, rounding half to even, so a float is
given here by the rational number it stands for.  (The sign of `-0.0` is the only
thing that is lost.)
-/
namespace Verif.Py

/-- decimal digits of `n`, at least `k` of them -/
def digitsPad (k n : Nat) : Str :=
  let s := Nat.toDigits 10 n
  List.replicate (k - s.length) '0' ++ s

/-- `'%.<p>f' % x` -/
def fixed (p : Nat) (x : ℚ) : Str :=
  let n := (roundEven (|x| * 10 ^ p)).toNat
  (if x < 0 then ['-'] else []) ++ Nat.toDigits 10 (n / 10 ^ p) ++
    (if p = 0 then [] else '.' :: digitsPad p (n % 10 ^ p))

/-- `'%.<p>e' % x` -/
def sci (p : Nat) (x : ℚ) : Str :=
  let e0 : Int := if x = 0 then 0 else Int.log 10 |x|
  let m0 := (roundEven (|x| * 10 ^ ((p : Int) - e0))).toNat
  let (m, e) := if m0 = 10 ^ (p + 1) then (10 ^ p, e0 + 1) else (m0, e0)
  (if x < 0 then ['-'] else []) ++ Nat.toDigits 10 (m / 10 ^ p) ++
    (if p = 0 then [] else '.' :: digitsPad p (m % 10 ^ p)) ++
    'e' :: (if e < 0 then '-' else '+') :: digitsPad 2 e.natAbs

example : fixed 3 (22 / 7) = "3.143".toList := by decide +kernel
example : fixed 0 (5 / 2) = "2".toList := by decide +kernel
example : sci 3 (-22 / 7) = "-3.143e+00".toList := by decide +kernel
example : sci 2 (99999 / 10) = "1.00e+04".toList := by decide +kernel
example : sci 4 (1 / 3000) = "3.3333e-04".toList := by decide +kernel

end Verif.Py
