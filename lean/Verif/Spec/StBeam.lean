import Verif.Model.StBeam
import Verif.Lemmas.St
import Mathlib.Tactic
/-!
# Displacements, forces and work of a beam element
-/
namespace Verif.St
open Verif.Py

/-- the degrees of freedom of a rigid body: displacement `a b c` of the first node and small rotation
`p q r` about it; the second node is at the distance `L` along z -/
def rigid {F : Type} [Field F] (L a b c p q r : F) : Nat → F
  | 1 => a
  | 2 => b
  | 3 => c
  | 4 => p
  | 5 => q
  | 6 => r
  | 7 => a + q * L
  | 8 => b - p * L
  | 9 => c
  | 10 => p
  | 11 => q
  | 12 => r
  | _ => 0

/-- the forces for displacements `u`: `(K u) i` -/
def force {F : Type} [Field F] (K : Nat → Nat → F) (u : Nat → F) (i : Nat) : F := ∑ j ∈ Finset.Icc 1 12, K i j * u j

/-- the work of the displacements `u`: `u · K u` -/
def work {F : Type} [Field F] (K : Nat → Nat → F) (u : Nat → F) : F := ∑ i ∈ Finset.Icc 1 12, u i * force K u i

/-- all properties of the section are positive -/
def Positive (s : Sec ℚ) : Prop :=
  0 < s.E ∧ 0 < s.G ∧ 0 < s.Ix ∧ 0 < s.Iy ∧ 0 < s.Iz ∧ 0 < s.kx ∧ 0 < s.ky ∧ 0 < s.A

end Verif.St
