import Verif.Model.FlexBld
import Verif.Lemmas.Str
import Verif.Py.Dec
import Mathlib.Data.List.Forall2
import Mathlib.Tactic
/-!
# What a FLEX blade file says
-/
namespace Verif.FlexBld
open Verif.Py
open Verif.Rosco (fitRow)

/-- a line which starts with the numbers `v`; further words are remarks -/
def Starts {F : Type} (φ : Num F) (l : Str) (v : List F) : Prop :=
  ∃ ws more, words l = ws ++ more ∧ List.Forall₂ (fun w x => φ.parse w = some x) ws v

/-- a line of damping of version 3: the numbers before the first semicolon -/
def StartsSemi {F : Type} (φ : Num F) (l : Str) (v : List F) : Prop :=
  ∃ a, (strip l = a ∨ ∃ more, strip l = a ++ ';' :: more) ∧ ';' ∉ a ∧
    List.Forall₂ (fun w x => φ.parse w = some x) (words a) v

/-- the columns of the structural table by version -/
def structNames : Nat → List String
  | 2 => ["r_[m]", "EIFlap_[Nm2]", "EIEdge_[Nm2]", "Mass_[kg/m]", "Str.Twist_[deg]", "CalcOutput_[0/1]", "PreBendFlap_[m]",
      "PreBendEdge_[m]", "GKt_[Nm2]"]
  | 3 => ["r_[m]", "EIFlap_[Nm2]", "EIEdge_[Nm2]", "GKt_[Nm2]", "Mass_[kg/m]", "Jxx_[kg.m]", "PreBendFlap_[m]", "PreBendEdge_[m]",
      "Str.Twist_[deg]", "PhiOut_[deg]", "Ycog_[m]", "Yshc_[m]", "CalcOutput_[0/1]"]
  | _ => ["r_[m]", "EIFlap_[Nm2]", "EIEdge_[Nm2]", "Mass_[kg/m]", "Str.Twist_[deg]", "CalcOutput_[0/1]", "PreBendFlap_[m]", "PreBendEdge_[m]"]

/-- the columns of the aerodynamic table by version -/
def aeroNames : Nat → List String
  | 0 => ["X_BladeRoot_[m]", "Chord_[m]", "AeroTwist_[deg]", "RelThickness_[%]", "AeroCenter_[m]"]
  | 1 => ["X_BladeRoot_[m]", "Chord_[m]", "AeroTwist_[deg]", "RelThickness_[%]", "AeroCenter_[m]", "AeroTorsion_[0/1]"]
  | _ => ["X_BladeRoot_[m]", "Chord_[m]", "AeroTwist_[deg]", "RelThickness_[%]", "AeroCenter_[m]", "AeroTorsion_[0/1]", "ProfileSet_[#]"]

/-- a file as written: title, number of sections, structural rows, prebend, lines of damping,
aerodynamic rows, name of the profile file -/
structure Text where
  title : Str
  count : Str
  struct : List Str
  beta : Str
  damp : List Str
  aero : List Str
  profile : Str

/-- the lines of a file -/
def Text.lines (t : Text) : List Str :=
  t.title :: t.count :: (t.struct ++ t.beta :: (t.damp ++ (t.aero ++ [t.profile])))

/-- what a file says -/
structure Content (F : Type) where
  version : Nat
  struct : List (List F)
  aero : List (List F)
  betaC : F
  flap : List F
  edge : List F
  tors : List F

/-- the lines of damping: four numbers on one line, or in version 3 three lines between one and two
lines which are not read -/
def DampOk {F : Type} (φ : Num F) (c : Content F) (ls : List Str) : Prop :=
  (c.version ≠ 3 ∧ ∃ l, ls = [l] ∧ Starts φ l (c.flap ++ c.edge) ∧ c.flap.length = 2 ∧ c.edge.length = 2 ∧ c.tors = []) ∨
  (c.version = 3 ∧ ∃ s0 l1 l2 l3 s1 s2, ls = [s0, l1, l2, l3, s1, s2] ∧ StartsSemi φ l1 c.flap ∧ StartsSemi φ l2 c.edge ∧ StartsSemi φ l3 c.tors)

/-- the text `t` says `c`: one row or more, of as many numbers as the version has columns -/
structure Text.Ok {F : Type} (φ : Num F) (t : Text) (c : Content F) : Prop where
  version : c.version ≤ 3 ∧ (φ.int (((strip t.title).drop 1).take 3) = some (c.version : Int) ∨
    φ.int (((strip t.title).drop 1).take 3) = none ∧ c.version = 0)
  count : ∃ w more, words t.count = w :: more ∧ φ.int w = some (t.struct.length : Int)
  some_rows : 1 ≤ t.struct.length ∧ t.aero.length = t.struct.length
  struct : List.Forall₂ (Starts φ) t.struct c.struct
  aero : List.Forall₂ (Starts φ) t.aero c.aero
  widthS : ∀ r ∈ c.struct, r.length = (structNames c.version).length
  widthA : ∀ r ∈ c.aero, r.length = (aeroNames c.version).length
  beta : ∃ w more, words t.beta = w :: more ∧ φ.parse w = some c.betaC
  damp : DampOk φ c t.damp

end Verif.FlexBld
