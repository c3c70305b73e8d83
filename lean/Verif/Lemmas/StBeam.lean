import Verif.Spec.StBeam
import Verif.Lemmas.St
import Mathlib.Tactic
/-!
# Lemmas on a beam element
-/
namespace Verif.St
open Verif.Py

theorem sum12 {F : Type} [Field F] (f : Nat → F) : ∑ j ∈ Finset.Icc 1 12, f j =
    f 1 + f 2 + f 3 + f 4 + f 5 + f 6 + f 7 + f 8 + f 9 + f 10 + f 11 + f 12 := by
  simp [Finset.sum_Icc_succ_top]

theorem force_row1 {F : Type} [Field F] (k11 k15 k22 k24 k33 k44 k410 k55 k511 k66 xs ys : F) (u : Nat → F) :
    force (symmetrize (fill k11 k15 k22 k24 k33 k44 k410 k55 k511 k66 xs ys)) u 1 =
      (k11 + k11 - 1 * (k11)) * u 1 +
      (0 + 0 - 0 * (0)) * u 2 +
      (0 + 0 - 0 * (0)) * u 3 +
      (0 + 0 - 0 * (0)) * u 4 +
      (k15 + 0 - 0 * (k15)) * u 5 +
      (-k11 * ys + 0 - 0 * (-k11 * ys)) * u 6 +
      (-k11 + 0 - 0 * (-k11)) * u 7 +
      (0 + 0 - 0 * (0)) * u 8 +
      (0 + 0 - 0 * (0)) * u 9 +
      (0 + 0 - 0 * (0)) * u 10 +
      (k15 + 0 - 0 * (k15)) * u 11 +
      (-(-k11 * ys) + 0 - 0 * (-(-k11 * ys))) * u 12 := by
  unfold force
  rw [sum12]
  simp only [symmetrize, show ((1 : Nat) = 2) = False from by simp, show ((1 : Nat) = 3) = False from by simp, show ((1 : Nat) = 4) = False from by simp, show ((1 : Nat) = 5) = False from by simp, show ((1 : Nat) = 6) = False from by simp, show ((1 : Nat) = 7) = False from by simp, show ((1 : Nat) = 8) = False from by simp, show ((1 : Nat) = 9) = False from by simp, show ((1 : Nat) = 10) = False from by simp, show ((1 : Nat) = 11) = False from by simp, show ((1 : Nat) = 12) = False from by simp, if_true, if_false]
  rfl

theorem force_row2 {F : Type} [Field F] (k11 k15 k22 k24 k33 k44 k410 k55 k511 k66 xs ys : F) (u : Nat → F) :
    force (symmetrize (fill k11 k15 k22 k24 k33 k44 k410 k55 k511 k66 xs ys)) u 2 =
      (0 + 0 - 0 * (0)) * u 1 +
      (k22 + k22 - 1 * (k22)) * u 2 +
      (0 + 0 - 0 * (0)) * u 3 +
      (k24 + 0 - 0 * (k24)) * u 4 +
      (0 + 0 - 0 * (0)) * u 5 +
      (k22 * xs + 0 - 0 * (k22 * xs)) * u 6 +
      (0 + 0 - 0 * (0)) * u 7 +
      (-k22 + 0 - 0 * (-k22)) * u 8 +
      (0 + 0 - 0 * (0)) * u 9 +
      (k24 + 0 - 0 * (k24)) * u 10 +
      (0 + 0 - 0 * (0)) * u 11 +
      (-(k22 * xs) + 0 - 0 * (-(k22 * xs))) * u 12 := by
  unfold force
  rw [sum12]
  simp only [symmetrize, show ((2 : Nat) = 1) = False from by simp, show ((2 : Nat) = 3) = False from by simp, show ((2 : Nat) = 4) = False from by simp, show ((2 : Nat) = 5) = False from by simp, show ((2 : Nat) = 6) = False from by simp, show ((2 : Nat) = 7) = False from by simp, show ((2 : Nat) = 8) = False from by simp, show ((2 : Nat) = 9) = False from by simp, show ((2 : Nat) = 10) = False from by simp, show ((2 : Nat) = 11) = False from by simp, show ((2 : Nat) = 12) = False from by simp, if_true, if_false]
  rfl

theorem force_row3 {F : Type} [Field F] (k11 k15 k22 k24 k33 k44 k410 k55 k511 k66 xs ys : F) (u : Nat → F) :
    force (symmetrize (fill k11 k15 k22 k24 k33 k44 k410 k55 k511 k66 xs ys)) u 3 =
      (0 + 0 - 0 * (0)) * u 1 +
      (0 + 0 - 0 * (0)) * u 2 +
      (k33 + k33 - 1 * (k33)) * u 3 +
      (0 + 0 - 0 * (0)) * u 4 +
      (0 + 0 - 0 * (0)) * u 5 +
      (0 + 0 - 0 * (0)) * u 6 +
      (0 + 0 - 0 * (0)) * u 7 +
      (0 + 0 - 0 * (0)) * u 8 +
      (-k33 + 0 - 0 * (-k33)) * u 9 +
      (0 + 0 - 0 * (0)) * u 10 +
      (0 + 0 - 0 * (0)) * u 11 +
      (0 + 0 - 0 * (0)) * u 12 := by
  unfold force
  rw [sum12]
  simp only [symmetrize, show ((3 : Nat) = 1) = False from by simp, show ((3 : Nat) = 2) = False from by simp, show ((3 : Nat) = 4) = False from by simp, show ((3 : Nat) = 5) = False from by simp, show ((3 : Nat) = 6) = False from by simp, show ((3 : Nat) = 7) = False from by simp, show ((3 : Nat) = 8) = False from by simp, show ((3 : Nat) = 9) = False from by simp, show ((3 : Nat) = 10) = False from by simp, show ((3 : Nat) = 11) = False from by simp, show ((3 : Nat) = 12) = False from by simp, if_true, if_false]
  rfl

theorem force_row4 {F : Type} [Field F] (k11 k15 k22 k24 k33 k44 k410 k55 k511 k66 xs ys : F) (u : Nat → F) :
    force (symmetrize (fill k11 k15 k22 k24 k33 k44 k410 k55 k511 k66 xs ys)) u 4 =
      (0 + 0 - 0 * (0)) * u 1 +
      (0 + k24 - 0 * (0)) * u 2 +
      (0 + 0 - 0 * (0)) * u 3 +
      (k44 + k44 - 1 * (k44)) * u 4 +
      (0 + 0 - 0 * (0)) * u 5 +
      (k24 * xs + 0 - 0 * (k24 * xs)) * u 6 +
      (0 + 0 - 0 * (0)) * u 7 +
      (-k24 + 0 - 0 * (-k24)) * u 8 +
      (0 + 0 - 0 * (0)) * u 9 +
      (k410 + 0 - 0 * (k410)) * u 10 +
      (0 + 0 - 0 * (0)) * u 11 +
      (-(k24 * xs) + 0 - 0 * (-(k24 * xs))) * u 12 := by
  unfold force
  rw [sum12]
  simp only [symmetrize, show ((4 : Nat) = 1) = False from by simp, show ((4 : Nat) = 2) = False from by simp, show ((4 : Nat) = 3) = False from by simp, show ((4 : Nat) = 5) = False from by simp, show ((4 : Nat) = 6) = False from by simp, show ((4 : Nat) = 7) = False from by simp, show ((4 : Nat) = 8) = False from by simp, show ((4 : Nat) = 9) = False from by simp, show ((4 : Nat) = 10) = False from by simp, show ((4 : Nat) = 11) = False from by simp, show ((4 : Nat) = 12) = False from by simp, if_true, if_false]
  rfl

theorem force_row5 {F : Type} [Field F] (k11 k15 k22 k24 k33 k44 k410 k55 k511 k66 xs ys : F) (u : Nat → F) :
    force (symmetrize (fill k11 k15 k22 k24 k33 k44 k410 k55 k511 k66 xs ys)) u 5 =
      (0 + k15 - 0 * (0)) * u 1 +
      (0 + 0 - 0 * (0)) * u 2 +
      (0 + 0 - 0 * (0)) * u 3 +
      (0 + 0 - 0 * (0)) * u 4 +
      (k55 + k55 - 1 * (k55)) * u 5 +
      (-k15 * ys + 0 - 0 * (-k15 * ys)) * u 6 +
      (-k15 + 0 - 0 * (-k15)) * u 7 +
      (0 + 0 - 0 * (0)) * u 8 +
      (0 + 0 - 0 * (0)) * u 9 +
      (0 + 0 - 0 * (0)) * u 10 +
      (k511 + 0 - 0 * (k511)) * u 11 +
      (-(-k15 * ys) + 0 - 0 * (-(-k15 * ys))) * u 12 := by
  unfold force
  rw [sum12]
  simp only [symmetrize, show ((5 : Nat) = 1) = False from by simp, show ((5 : Nat) = 2) = False from by simp, show ((5 : Nat) = 3) = False from by simp, show ((5 : Nat) = 4) = False from by simp, show ((5 : Nat) = 6) = False from by simp, show ((5 : Nat) = 7) = False from by simp, show ((5 : Nat) = 8) = False from by simp, show ((5 : Nat) = 9) = False from by simp, show ((5 : Nat) = 10) = False from by simp, show ((5 : Nat) = 11) = False from by simp, show ((5 : Nat) = 12) = False from by simp, if_true, if_false]
  rfl

theorem force_row6 {F : Type} [Field F] (k11 k15 k22 k24 k33 k44 k410 k55 k511 k66 xs ys : F) (u : Nat → F) :
    force (symmetrize (fill k11 k15 k22 k24 k33 k44 k410 k55 k511 k66 xs ys)) u 6 =
      (0 + -k11 * ys - 0 * (0)) * u 1 +
      (0 + k22 * xs - 0 * (0)) * u 2 +
      (0 + 0 - 0 * (0)) * u 3 +
      (0 + k24 * xs - 0 * (0)) * u 4 +
      (0 + -k15 * ys - 0 * (0)) * u 5 +
      (k66 + k66 - 1 * (k66)) * u 6 +
      (-(-k11 * ys) + 0 - 0 * (-(-k11 * ys))) * u 7 +
      (-(k22 * xs) + 0 - 0 * (-(k22 * xs))) * u 8 +
      (0 + 0 - 0 * (0)) * u 9 +
      (-(-(k24 * xs)) + 0 - 0 * (-(-(k24 * xs)))) * u 10 +
      (-(-(-k15 * ys)) + 0 - 0 * (-(-(-k15 * ys)))) * u 11 +
      (-k66 + 0 - 0 * (-k66)) * u 12 := by
  unfold force
  rw [sum12]
  simp only [symmetrize, show ((6 : Nat) = 1) = False from by simp, show ((6 : Nat) = 2) = False from by simp, show ((6 : Nat) = 3) = False from by simp, show ((6 : Nat) = 4) = False from by simp, show ((6 : Nat) = 5) = False from by simp, show ((6 : Nat) = 7) = False from by simp, show ((6 : Nat) = 8) = False from by simp, show ((6 : Nat) = 9) = False from by simp, show ((6 : Nat) = 10) = False from by simp, show ((6 : Nat) = 11) = False from by simp, show ((6 : Nat) = 12) = False from by simp, if_true, if_false]
  rfl

theorem force_row7 {F : Type} [Field F] (k11 k15 k22 k24 k33 k44 k410 k55 k511 k66 xs ys : F) (u : Nat → F) :
    force (symmetrize (fill k11 k15 k22 k24 k33 k44 k410 k55 k511 k66 xs ys)) u 7 =
      (0 + -k11 - 0 * (0)) * u 1 +
      (0 + 0 - 0 * (0)) * u 2 +
      (0 + 0 - 0 * (0)) * u 3 +
      (0 + 0 - 0 * (0)) * u 4 +
      (0 + -k15 - 0 * (0)) * u 5 +
      (0 + -(-k11 * ys) - 0 * (0)) * u 6 +
      (k11 + k11 - 1 * (k11)) * u 7 +
      (0 + 0 - 0 * (0)) * u 8 +
      (0 + 0 - 0 * (0)) * u 9 +
      (0 + 0 - 0 * (0)) * u 10 +
      (-k15 + 0 - 0 * (-k15)) * u 11 +
      (-k11 * ys + 0 - 0 * (-k11 * ys)) * u 12 := by
  unfold force
  rw [sum12]
  simp only [symmetrize, show ((7 : Nat) = 1) = False from by simp, show ((7 : Nat) = 2) = False from by simp, show ((7 : Nat) = 3) = False from by simp, show ((7 : Nat) = 4) = False from by simp, show ((7 : Nat) = 5) = False from by simp, show ((7 : Nat) = 6) = False from by simp, show ((7 : Nat) = 8) = False from by simp, show ((7 : Nat) = 9) = False from by simp, show ((7 : Nat) = 10) = False from by simp, show ((7 : Nat) = 11) = False from by simp, show ((7 : Nat) = 12) = False from by simp, if_true, if_false]
  rfl

theorem force_row8 {F : Type} [Field F] (k11 k15 k22 k24 k33 k44 k410 k55 k511 k66 xs ys : F) (u : Nat → F) :
    force (symmetrize (fill k11 k15 k22 k24 k33 k44 k410 k55 k511 k66 xs ys)) u 8 =
      (0 + 0 - 0 * (0)) * u 1 +
      (0 + -k22 - 0 * (0)) * u 2 +
      (0 + 0 - 0 * (0)) * u 3 +
      (0 + -k24 - 0 * (0)) * u 4 +
      (0 + 0 - 0 * (0)) * u 5 +
      (0 + -(k22 * xs) - 0 * (0)) * u 6 +
      (0 + 0 - 0 * (0)) * u 7 +
      (k22 + k22 - 1 * (k22)) * u 8 +
      (0 + 0 - 0 * (0)) * u 9 +
      (-k24 + 0 - 0 * (-k24)) * u 10 +
      (0 + 0 - 0 * (0)) * u 11 +
      (k22 * xs + 0 - 0 * (k22 * xs)) * u 12 := by
  unfold force
  rw [sum12]
  simp only [symmetrize, show ((8 : Nat) = 1) = False from by simp, show ((8 : Nat) = 2) = False from by simp, show ((8 : Nat) = 3) = False from by simp, show ((8 : Nat) = 4) = False from by simp, show ((8 : Nat) = 5) = False from by simp, show ((8 : Nat) = 6) = False from by simp, show ((8 : Nat) = 7) = False from by simp, show ((8 : Nat) = 9) = False from by simp, show ((8 : Nat) = 10) = False from by simp, show ((8 : Nat) = 11) = False from by simp, show ((8 : Nat) = 12) = False from by simp, if_true, if_false]
  rfl

theorem force_row9 {F : Type} [Field F] (k11 k15 k22 k24 k33 k44 k410 k55 k511 k66 xs ys : F) (u : Nat → F) :
    force (symmetrize (fill k11 k15 k22 k24 k33 k44 k410 k55 k511 k66 xs ys)) u 9 =
      (0 + 0 - 0 * (0)) * u 1 +
      (0 + 0 - 0 * (0)) * u 2 +
      (0 + -k33 - 0 * (0)) * u 3 +
      (0 + 0 - 0 * (0)) * u 4 +
      (0 + 0 - 0 * (0)) * u 5 +
      (0 + 0 - 0 * (0)) * u 6 +
      (0 + 0 - 0 * (0)) * u 7 +
      (0 + 0 - 0 * (0)) * u 8 +
      (k33 + k33 - 1 * (k33)) * u 9 +
      (0 + 0 - 0 * (0)) * u 10 +
      (0 + 0 - 0 * (0)) * u 11 +
      (0 + 0 - 0 * (0)) * u 12 := by
  unfold force
  rw [sum12]
  simp only [symmetrize, show ((9 : Nat) = 1) = False from by simp, show ((9 : Nat) = 2) = False from by simp, show ((9 : Nat) = 3) = False from by simp, show ((9 : Nat) = 4) = False from by simp, show ((9 : Nat) = 5) = False from by simp, show ((9 : Nat) = 6) = False from by simp, show ((9 : Nat) = 7) = False from by simp, show ((9 : Nat) = 8) = False from by simp, show ((9 : Nat) = 10) = False from by simp, show ((9 : Nat) = 11) = False from by simp, show ((9 : Nat) = 12) = False from by simp, if_true, if_false]
  rfl

theorem force_row10 {F : Type} [Field F] (k11 k15 k22 k24 k33 k44 k410 k55 k511 k66 xs ys : F) (u : Nat → F) :
    force (symmetrize (fill k11 k15 k22 k24 k33 k44 k410 k55 k511 k66 xs ys)) u 10 =
      (0 + 0 - 0 * (0)) * u 1 +
      (0 + k24 - 0 * (0)) * u 2 +
      (0 + 0 - 0 * (0)) * u 3 +
      (0 + k410 - 0 * (0)) * u 4 +
      (0 + 0 - 0 * (0)) * u 5 +
      (0 + -(-(k24 * xs)) - 0 * (0)) * u 6 +
      (0 + 0 - 0 * (0)) * u 7 +
      (0 + -k24 - 0 * (0)) * u 8 +
      (0 + 0 - 0 * (0)) * u 9 +
      (k44 + k44 - 1 * (k44)) * u 10 +
      (0 + 0 - 0 * (0)) * u 11 +
      (-(k24 * xs) + 0 - 0 * (-(k24 * xs))) * u 12 := by
  unfold force
  rw [sum12]
  simp only [symmetrize, show ((10 : Nat) = 1) = False from by simp, show ((10 : Nat) = 2) = False from by simp, show ((10 : Nat) = 3) = False from by simp, show ((10 : Nat) = 4) = False from by simp, show ((10 : Nat) = 5) = False from by simp, show ((10 : Nat) = 6) = False from by simp, show ((10 : Nat) = 7) = False from by simp, show ((10 : Nat) = 8) = False from by simp, show ((10 : Nat) = 9) = False from by simp, show ((10 : Nat) = 11) = False from by simp, show ((10 : Nat) = 12) = False from by simp, if_true, if_false]
  rfl

theorem force_row11 {F : Type} [Field F] (k11 k15 k22 k24 k33 k44 k410 k55 k511 k66 xs ys : F) (u : Nat → F) :
    force (symmetrize (fill k11 k15 k22 k24 k33 k44 k410 k55 k511 k66 xs ys)) u 11 =
      (0 + k15 - 0 * (0)) * u 1 +
      (0 + 0 - 0 * (0)) * u 2 +
      (0 + 0 - 0 * (0)) * u 3 +
      (0 + 0 - 0 * (0)) * u 4 +
      (0 + k511 - 0 * (0)) * u 5 +
      (0 + -(-(-k15 * ys)) - 0 * (0)) * u 6 +
      (0 + -k15 - 0 * (0)) * u 7 +
      (0 + 0 - 0 * (0)) * u 8 +
      (0 + 0 - 0 * (0)) * u 9 +
      (0 + 0 - 0 * (0)) * u 10 +
      (k55 + k55 - 1 * (k55)) * u 11 +
      (-(-k15 * ys) + 0 - 0 * (-(-k15 * ys))) * u 12 := by
  unfold force
  rw [sum12]
  simp only [symmetrize, show ((11 : Nat) = 1) = False from by simp, show ((11 : Nat) = 2) = False from by simp, show ((11 : Nat) = 3) = False from by simp, show ((11 : Nat) = 4) = False from by simp, show ((11 : Nat) = 5) = False from by simp, show ((11 : Nat) = 6) = False from by simp, show ((11 : Nat) = 7) = False from by simp, show ((11 : Nat) = 8) = False from by simp, show ((11 : Nat) = 9) = False from by simp, show ((11 : Nat) = 10) = False from by simp, show ((11 : Nat) = 12) = False from by simp, if_true, if_false]
  rfl

theorem force_row12 {F : Type} [Field F] (k11 k15 k22 k24 k33 k44 k410 k55 k511 k66 xs ys : F) (u : Nat → F) :
    force (symmetrize (fill k11 k15 k22 k24 k33 k44 k410 k55 k511 k66 xs ys)) u 12 =
      (0 + -(-k11 * ys) - 0 * (0)) * u 1 +
      (0 + -(k22 * xs) - 0 * (0)) * u 2 +
      (0 + 0 - 0 * (0)) * u 3 +
      (0 + -(k24 * xs) - 0 * (0)) * u 4 +
      (0 + -(-k15 * ys) - 0 * (0)) * u 5 +
      (0 + -k66 - 0 * (0)) * u 6 +
      (0 + -k11 * ys - 0 * (0)) * u 7 +
      (0 + k22 * xs - 0 * (0)) * u 8 +
      (0 + 0 - 0 * (0)) * u 9 +
      (0 + -(k24 * xs) - 0 * (0)) * u 10 +
      (0 + -(-k15 * ys) - 0 * (0)) * u 11 +
      (k66 + k66 - 1 * (k66)) * u 12 := by
  unfold force
  rw [sum12]
  simp only [symmetrize, show ((12 : Nat) = 1) = False from by simp, show ((12 : Nat) = 2) = False from by simp, show ((12 : Nat) = 3) = False from by simp, show ((12 : Nat) = 4) = False from by simp, show ((12 : Nat) = 5) = False from by simp, show ((12 : Nat) = 6) = False from by simp, show ((12 : Nat) = 7) = False from by simp, show ((12 : Nat) = 8) = False from by simp, show ((12 : Nat) = 9) = False from by simp, show ((12 : Nat) = 10) = False from by simp, show ((12 : Nat) = 11) = False from by simp, if_true, if_false]
  rfl

theorem force_fill {F : Type} [Field F] (k11 k15 k22 k24 k33 k44 k410 k55 k511 k66 xs ys : F) (u : Nat → F) :
    let K := symmetrize (fill k11 k15 k22 k24 k33 k44 k410 k55 k511 k66 xs ys)
    let X := u 1 - u 7 + ys * (u 12 - u 6)
    let Y := u 2 - u 8 - xs * (u 12 - u 6)
    force K u 1 = k11 * X + k15 * (u 5 + u 11) ∧
    force K u 2 = k22 * Y + k24 * (u 4 + u 10) ∧
    force K u 3 = k33 * (u 3 - u 9) ∧
    force K u 4 = k24 * Y + k44 * u 4 + k410 * u 10 ∧
    force K u 5 = k15 * X + k55 * u 5 + k511 * u 11 ∧
    force K u 6 = k11 * ys * (u 7 - u 1) - k22 * xs * (u 8 - u 2) + (k24 * xs) * (u 4 + u 10) - (k15 * ys) * (u 5 + u 11) + k66 * (u 6 - u 12) ∧
    force K u 7 = -(k11 * X + k15 * (u 5 + u 11)) ∧
    force K u 8 = -(k22 * Y + k24 * (u 4 + u 10)) ∧
    force K u 9 = -(k33 * (u 3 - u 9)) ∧
    force K u 10 = k24 * Y + k44 * u 10 + k410 * u 4 ∧
    force K u 11 = k15 * X + k55 * u 11 + k511 * u 5 ∧
    force K u 12 = -(k11 * ys * (u 7 - u 1) - k22 * xs * (u 8 - u 2) + (k24 * xs) * (u 4 + u 10) - (k15 * ys) * (u 5 + u 11) + k66 * (u 6 - u 12)) := by
  intro K X Y
  refine ⟨?_, ?_, ?_, ?_, ?_, ?_, ?_, ?_, ?_, ?_, ?_, ?_⟩
  · rw [force_row1]
    ring
  · rw [force_row2]
    ring
  · rw [force_row3]
    ring
  · rw [force_row4]
    ring
  · rw [force_row5]
    ring
  · rw [force_row6]
    ring
  · rw [force_row7]
    ring
  · rw [force_row8]
    ring
  · rw [force_row9]
    ring
  · rw [force_row10]
    ring
  · rw [force_row11]
    ring
  · rw [force_row12]
    ring

/-- the work, as a sum of squares -/
theorem work_eq {F : Type} [Field F] (s : Sec F) (L : F) (hL : L ≠ 0) (h2 : (2 : F) ≠ 0) (u : Nat → F) : work (stiff s L) u =
    s.A * s.E / L * (u 9 - u 3) ^ 2 + s.G * s.Iz / L * (u 12 - u 6) ^ 2 +
    s.E * s.Iy * roY s L / L *
      (12 * ((u 7 - u 1 - s.ys * (u 12 - u 6)) / L - (u 5 + u 11) / 2) ^ 2 + (1 + 12 * etaY s L) * (u 11 - u 5) ^ 2) +
    s.E * s.Ix * roX s L / L *
      (12 * ((u 8 - u 2 + s.xs * (u 12 - u 6)) / L + (u 4 + u 10) / 2) ^ 2 + (1 + 12 * etaX s L) * (u 10 - u 4) ^ 2) := by
  unfold work
  rw [sum12]
  obtain ⟨h1, h2', h3, h4, h5, h6, h7, h8, h9, h10, h11, h12⟩ := force_fill (12 * s.E * s.Iy * roY s L / L ^ 3) (6 * s.E * s.Iy * roY s L / L ^ 2)
    (12 * s.E * s.Ix * roX s L / L ^ 3) (-6 * s.E * s.Ix * roX s L / L ^ 2) (s.A * s.E / L)
    (4 * s.E * s.Ix * (1 + 3 * etaX s L) * roX s L / L) (2 * s.E * s.Ix * (1 - 6 * etaX s L) * roX s L / L)
    (4 * s.E * s.Iy * (1 + 3 * etaY s L) * roY s L / L) (2 * s.E * s.Iy * (1 - 6 * etaY s L) * roY s L / L)
    (s.G * s.Iz / L + 12 * s.E * (s.Ix * s.xs ^ 2 * roX s L + s.Iy * s.ys ^ 2 * roY s L) / L ^ 3) s.xs s.ys u
  rw [show stiff s L = symmetrize (fill _ _ _ _ _ _ _ _ _ _ _ _) from rfl]
  rw [h1, h2', h3, h4, h5, h6, h7, h8, h9, h10, h11, h12]
  generalize roX s L = rx
  generalize roY s L = ry
  generalize etaX s L = ex
  generalize etaY s L = ey
  field_simp
  ring

theorem query_node (o : Obj ℚ) (m s : Int) (rows : List (List ℚ)) (h : BeamSet o m s rows) (c : Nat) (name : Str)
    (hc : o.cols[c]? = some name) (r : List ℚ) (hr : r ∈ rows) : query o name (r.getD 0 0) m s = .ok (r.getD c 0) := by
  obtain ⟨i, hi, hri⟩ := List.getElem_of_mem hr
  refine query_eq o m s rows h c name hc _ _ (interp_node _ (by rw [fst_map]; exact h.2.2.2.1) i _ _ ?_)
  rw [List.getElem?_map, List.getElem?_eq_getElem hi, hri]
  rfl

theorem shape_sum (e f1 f2 : ℚ) (he : 1 + 12 * e ≠ 0) (hf : f1 + f2 = 1) : shape3 e f1 + shape3 e f2 = 1 := by
  have : f2 = 1 - f1 := by linarith
  subst this
  unfold shape3
  field_simp
  ring

theorem shape_disp (e L f1 f2 : ℚ) (he : 1 + 12 * e ≠ 0) (hf : f1 + f2 = 1) :
    shape5 e L f1 - shape5 e L f2 + shape3 e f1 * L = f1 * L := by
  have : f2 = 1 - f1 := by linarith
  subst this
  have key : (1 + 12 * e) * (1 / (1 + 12 * e)) = 1 := by field_simp
  unfold shape5 shape3
  generalize 1 / (1 + 12 * e) = t at *
  linear_combination f1 * L * key

theorem shape_rot (e L f1 f2 : ℚ) (he : 1 + 12 * e ≠ 0) (hL : L ≠ 0) (hf : f1 + f2 = 1) :
    shape8 e f1 + shape8 e f2 + shape7 e L f1 f2 * L = 1 := by
  have : f2 = 1 - f1 := by linarith
  subst this
  have key : (1 + 12 * e) * (1 / (1 + 12 * e)) = 1 := by field_simp
  have key2 : 6 / L * L = 6 := by field_simp
  unfold shape8 shape7
  generalize 1 / (1 + 12 * e) = t at *
  generalize 6 / L = w at *
  linear_combination key + f1 * (1 - f1) * t * key2

end Verif.St
