import Verif.Model.FlexSens
import Verif.Props.Flex
import Verif.Lemmas.TurbSimTS
import Verif.Lemmas.Hawc2Sel
import Verif.Lemmas.Tecplot
/-!
# What a FLEX sensor file says
-/
namespace Verif.FlexSens
open Verif.Py Verif.TurbSimTS

/-- the words of a line of the sensor file: number, gain, offset, two more, unit, name, description -/
def Says {D : Type} (φ : Num D) (l : Str) (x : Sensor D) : Prop :=
  ∃ i g o a b descr, words l = i :: g :: o :: a :: b :: x.unit :: x.name :: descr ∧ φ.int i = some x.id ∧ φ.flt g = some x.gain ∧ φ.flt o = some x.offset ∧
    x.descr = joinWith [' '] descr

/-- the text of a sensor file: two lines, and a line for every sensor -/
def SensorFile {D : Type} (φ : Num D) (s : Str) (ss : List (Sensor D)) : Prop :=
  ∃ l1 l2 ls, HasLines s (l1 :: l2 :: ls) ∧ List.Forall₂ (Says φ) ls ss

/-- a unit without brackets -/
def bare (u : Str) : Str := u.filter fun c => c ∉ ['(', ')', '[', ']']

end Verif.FlexSens
