import Verif.Model.DeckRead
import Verif.Lemmas.Path
import Mathlib.Tactic
/-!
# What a FAST input deck says
-/
namespace Verif.DeckRead
open Verif.Py

/-- the content of a file -/
def Res.file : Res → Option File
  | .ok f => some f
  | _ => none

/-- the content of the file named `rel` in the directory of the main file, if files of this kind are asked for and the
name does not stand for an unused file -/
def atPath (fs : FS) (kinds : List Str) (main rel kind : Str) : Option File :=
  if kind ∈ kinds ∧ lower (basename (unquote rel)) ∉ [['u', 'n', 'u', 's', 'e', 'd'], ['n', 'a', 'n'], ['n', 'a'], ['n', 'o', 'n', 'e']] then
    (fs (pjoin (dirname main) (unquote rel))).file
  else none

/-- a number of the main file with a property -/
def Flag (main : File) (key : String) (p : Int → Prop) : Prop := ∃ n, main.get key = some (.num n) ∧ p n

/-- the module holds the file the main file refers to if it is on, and what it held before otherwise -/
def Module (fs : FS) (d0 d : Deck) (main : File) (on : Prop) (slot : Slot) (ref kind : String) : Prop :=
  (on → ∃ rel, main.get ref = some (.str rel) ∧ d.vt slot = atPath fs d.readlist d.filename rel kind.toList) ∧ (¬ on → d.vt slot = d0.vt slot)

/-- the kind of the file of a module -/
def kindOf : Slot → Str
  | .fst => "Fst".toList
  | .ed => "ED".toList
  | .edBld => "EDbld".toList
  | .edTwr => "EDtwr".toList
  | .iw => "IW".toList
  | .ad14 => "AD".toList
  | .ad15 => "AD".toList
  | .adBld => "ADbld".toList
  | .srvd => "SrvD".toList
  | .hd => "HD".toList
  | .moordyn => "MD".toList
  | .sd => "SD".toList
  | .map => "MD".toList
  | .bd => "BD".toList
  | .bdBld => "BDbld".toList

/-- the main file of an OpenFAST model -/
def OpenFast (main : File) : Prop := main.get "NumTurbines" = none ∧ main.get "InterpOrder" ≠ none

/-- a name as it is written in a file: with or without quotes -/
def Written (e p : Str) : Prop := '"' ∉ p ∧ (e = p ∨ e = '"' :: (p ++ ['"']))

/-- a relative name -/
def Relative (p : Str) : Prop := p.head? ≠ some '/'

/-- a main file with all flags and references, which does not use AeroDyn 14 -/
structure Complete (main : File) : Prop where
  flags : ∀ k ∈ ["CompInflow", "CompAero", "CompServo", "CompHydro", "CompSub", "CompMooring", "CompElast"], Flag main k (fun _ => True)
  refs : ∀ k ∈ ["EDFile", "InflowFile", "AeroFile", "ServoFile", "HydroFile", "SubFile", "MooringFile", "BDBldFile(1)"], ∃ r, main.get k = some (.str r)
  aero : ¬ Flag main "CompAero" (· = 1)

/-- the files of AeroDyn and BeamDyn name those of their blades and polars; the polars say how many coordinates they have -/
structure Sound (fs : FS) (filename : Str) (main : File) : Prop where
  bd : ∀ e, main.get "BDBldFile(1)" = some (.str e) → ∀ bd, fs (pjoin (dirname filename) (unquote e)) = .ok bd → ∃ b, bd.get "BldFile" = some (.str b)
  ad : ∀ e, main.get "AeroFile" = some (.str e) → ∀ ad, fs (pjoin (dirname filename) (unquote e)) = .ok ad →
    ∃ b names, ad.get "ADBlFile(1)" = some (.str b) ∧ ad.get "AFNames" = some (.list names) ∧
      ∀ n ∈ names, ∀ f, fs (pjoin (dirname filename) (unquote (pjoin (dirname e) n))) = .ok f → ∃ v, f.get "NumCoords" = some v ∧ ∀ s, v = .str s → unquote s ≠ []

end Verif.DeckRead
