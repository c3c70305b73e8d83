import Verif.Model.Rosco
/-!
# FLEX blade files — `/repo/weio/flex_blade_file.py`

`_read` (25-120), `_toDataFrame` (140-141).

Simplifications
* `float(s)` and `int(s)` are parameters;
* the file is its list of lines; `readline` at the end gives `''`;
* a row is assigned to a row of `np.zeros((nSections, nCols))`: numpy takes a row of the right length,
  repeats a row of one number, and refuses any other (`Rosco.fitRow`);
* a data frame is a list of named columns, `none` for a missing value.
-/
namespace Verif.FlexBld
open Verif.Py
open Verif.Rosco (fitRow)

/-- exceptions: `WrongFormatError`, `BrokenFormatError`, `ValueError`, `IndexError` -/
inductive BErr where
  | wrong | broken | value | index
deriving DecidableEq, Repr

/-- the texts of numbers -/
structure Num (F : Type) where
  parse : Str → Option F
  int : Str → Option Int

/-- `headers_all` (26-28) -/
def headersAll : List String :=
  ["r_[m]", "EIFlap_[Nm2]", "EIEdge_[Nm2]", "GKt_[Nm2]", "Mass_[kg/m]", "Jxx_[kg.m]", "PreBendFlap_[m]", "PreBendEdge_[m]",
   "Str.Twist_[deg]", "PhiOut_[deg]", "Ycog_[m]", "Yshc_[m]", "CalcOutput_[0/1]",
   "Chord_[m]", "AeroTwist_[deg]", "RelThickness_[%]", "AeroCenter_[m]", "AeroTorsion_[0/1]", "ProfileSet_[#]"]

/-- `nColsStruct, nColsAero, struct_headers, aero_headers` (40-65); `none` is the branch `else` -/
def layout (version : Int) : Option (Nat × Nat × List String × List String) :=
  if version = 0 then
    some (8, 5,
      ["r_[m]", "EIFlap_[Nm2]", "EIEdge_[Nm2]", "Mass_[kg/m]", "Str.Twist_[deg]", "CalcOutput_[0/1]", "PreBendFlap_[m]", "PreBendEdge_[m]"],
      ["X_BladeRoot_[m]", "Chord_[m]", "AeroTwist_[deg]", "RelThickness_[%]", "AeroCenter_[m]"])
  else if version = 1 then
    some (8, 6,
      ["r_[m]", "EIFlap_[Nm2]", "EIEdge_[Nm2]", "Mass_[kg/m]", "Str.Twist_[deg]", "CalcOutput_[0/1]", "PreBendFlap_[m]", "PreBendEdge_[m]"],
      ["X_BladeRoot_[m]", "Chord_[m]", "AeroTwist_[deg]", "RelThickness_[%]", "AeroCenter_[m]", "AeroTorsion_[0/1]"])
  else if version = 2 then
    some (9, 7,
      ["r_[m]", "EIFlap_[Nm2]", "EIEdge_[Nm2]", "Mass_[kg/m]", "Str.Twist_[deg]", "CalcOutput_[0/1]", "PreBendFlap_[m]", "PreBendEdge_[m]", "GKt_[Nm2]"],
      ["X_BladeRoot_[m]", "Chord_[m]", "AeroTwist_[deg]", "RelThickness_[%]", "AeroCenter_[m]", "AeroTorsion_[0/1]", "ProfileSet_[#]"])
  else if version = 3 then
    some (13, 7,
      ["r_[m]", "EIFlap_[Nm2]", "EIEdge_[Nm2]", "GKt_[Nm2]", "Mass_[kg/m]", "Jxx_[kg.m]", "PreBendFlap_[m]", "PreBendEdge_[m]",
       "Str.Twist_[deg]", "PhiOut_[deg]", "Ycog_[m]", "Yshc_[m]", "CalcOutput_[0/1]"],
      ["X_BladeRoot_[m]", "Chord_[m]", "AeroTwist_[deg]", "RelThickness_[%]", "AeroCenter_[m]", "AeroTorsion_[0/1]", "ProfileSet_[#]"])
  else none

/-- the attributes of the object -/
structure Blade (F : Type) where
  version : Int
  betaC : F
  flapDamping : List F
  edgeDamping : List F
  torsDamping : List F
  profileFile : Str
  data : List (String × List (Option F))
deriving DecidableEq

/-- `version` (35-38): characters 2 to 4 of the first line, 0 if they are no integer -/
def versionOf {F : Type} (φ : Num F) (firstline : Str) : Int := (φ.int ((firstline.drop 1).take 3)).getD 0

/-- rows of a table (70-82, 103-108); words after the first `nCols` are ignored -/
def readRows {F : Type} (φ : Num F) (nCols : Nat) : Nat → List Str → Option (List (List F) × List Str)
  | 0, ls => some ([], ls)
  | n + 1, ls => do
    let r ← ((words (ls.headD [])).take nCols).mapM φ.parse
    let r ← fitRow nCols r
    let (rs, rest) ← readRows φ nCols n ls.tail
    return (r :: rs, rest)

/-- a line of damping in version 3 (88-90) -/
def dampLine {F : Type} (φ : Num F) (l : Str) : Option (List F) :=
  (words ((splitOn ';' (strip l)).headD [])).mapM φ.parse

/-- prebend and dampings (84-100): `BetaC`, three lists, remaining lines; errors are raised as they are -/
def damping {F : Type} (φ : Num F) (version : Int) (ls : List Str) : Except BErr (F × List F × List F × List F × List Str) :=
  match words (strip (ls.headD [])) with
  | [] => .error .index
  | w :: _ =>
    match φ.parse w with
    | none => .error .value
    | some b =>
      if version = 3 then
        let ls := ls.tail.tail
        match dampLine φ (ls.headD []), dampLine φ (ls.tail.headD []), dampLine φ (ls.tail.tail.headD []) with
        | some f, some e, some t => .ok (b, f, e, t, ls.tail.tail.tail.tail.tail)
        | _, _, _ => .error .value
      else
        match ((words (strip (ls.tail.headD []))).take 4).mapM φ.parse with
        | none => .error .value
        | some d => .ok (b, d.take 2, (d.take 4).drop 2, [], ls.tail.tail)

/-- the column `c` of `dataMiss` (114-115) -/
def column {F : Type} (cols : List String) (rows : List (List F)) (c : String) : List (Option F) :=
  rows.map (fun r => r[cols.idxOf c]?)

/-- all columns (113-120): those of the file, and missing values in the others -/
def allColumns {F : Type} (sh ah : List String) (struct aero : List (List F)) : List (String × List (Option F)) :=
  let cols := sh ++ ah.tail
  let rows := List.zipWith (fun s a => s ++ a.tail) struct aero
  headersAll.map (fun h => (h, if h ∈ cols then column cols rows h else rows.map (fun _ => none)))

/-- `_read` (25-120) -/
def read {F : Type} (φ : Num F) (ls : List Str) : Except BErr (Blade F) :=
  let firstline := strip (ls.headD [])
  match words (strip (ls.tail.headD [])) with
  | [] => .error .wrong
  | w :: _ =>
    match φ.int w with
    | none => .error .wrong
    | some nSections =>
      let version := versionOf φ firstline
      match layout version with
      | none => .error .broken
      | some (nS, nA, sh, ah) =>
        if nSections < 0 then .error .value
        else
          match readRows φ nS nSections.toNat ls.tail.tail with
          | none => .error .wrong
          | some (struct, rest) =>
            match damping φ version rest with
            | .error e => .error e
            | .ok (b, f, e, t, rest) =>
              match readRows φ nA nSections.toNat rest with
              | none => .error .wrong
              | some (aero, rest) => .ok ⟨version, b, f, e, t, strip (rest.headD []), allColumns sh ah struct aero⟩

end Verif.FlexBld
