import Verif.Model.MannTurb
import Verif.Props.Mann
import Verif.Props.TurbSim
import Verif.Lemmas.FastLine
import Verif.Lemmas.HawcAe
import Verif.Lemmas.DeckRead
import Mathlib.Tactic
/-!
# What a converted box says
-/
namespace Verif.MannTurb
open Verif.Py Verif.Mann
open Verif.TurbSim (Box Field midIndex)
open Verif.DeckRead (bind_ok ok_bind)

/-- the field is `nt` planes of `ny` rows of `nz` numbers, and these numbers are those of `f` -/
def Holds (l : List (List (List ℚ))) (nt ny nz : Nat) (f : Nat → Nat → Nat → ℚ) : Prop :=
  Shape l nt ny nz ∧ ∀ it iy iz, it < nt → iy < ny → iz < nz →
    ∃ plane row, l[it]? = some plane ∧ plane[iy]? = some row ∧ row[iz]? = some (f it iy iz)

/-- the storage keeps the number `rd x` of `x`, in four bytes -/
def Keeps (st : Store ℚ) (rd : ℚ → ℚ) : Prop := ∀ x, (st.enc x).length = 4 ∧ st.dec (st.enc x) = rd x

/-- the box has numbers in all directions -/
def NonEmpty (b : Box) : Prop := 0 < b.nt ∧ 0 < b.ny ∧ 0 < b.nz

/-- the name of the file of a component: the base name, the dimensions, the letter of the component -/
def fileOf (base : Str) (b : Box) (c : Char) : Str :=
  base ++ "_".toList ++ Nat.toDigits 10 b.nt ++ "x".toList ++ Nat.toDigits 10 b.ny ++ "x".toList ++ Nat.toDigits 10 b.nz ++ ['.', c]

/-- what is taken from the first component -/
def removed (b : Box) (c : Option ℚ) (all : Bool) (iy iz : Nat) : ℚ :=
  if all then ((List.range b.nt).map (fun it => b.u 0 it iy iz)).sum / b.nt else c.getD 0

/-- `i` is the first index of a number of `c` closest to the middle of its first and last number -/
def Middle (c : List ℚ) (i : Nat) : Prop :=
  ∃ a e m, c.head? = some a ∧ c.getLast? = some e ∧ c[i]? = some m ∧
    ∀ (j : Nat) x, c[j]? = some x → |m - (a + e) / 2| ≤ |x - (a + e) / 2| ∧ (j < i → |m - (a + e) / 2| < |x - (a + e) / 2|)

/-- an array of these dimensions -/
def Arr.Dims (a : Arr) (nt ny nz : Nat) : Prop := a.nt = nt ∧ a.ny = ny ∧ a.nz = nz

/-- `i` is the first index of a number of `c` closest to `x` -/
def Closest (c : List ℚ) (x : ℚ) (i : Nat) : Prop :=
  ∃ m, c[i]? = some m ∧ ∀ (j : Nat) x', c[j]? = some x' → |m - x| ≤ |x' - x| ∧ (j < i → |m - x| < |x' - x|)

end Verif.MannTurb
