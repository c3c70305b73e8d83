import Verif.Py.Path
import Verif.Py.Dec
/-!
# Reading a FAST input deck — `/repo/weio/fast_input_deck.py:24-337`

Simplifications: a file is the list of its keys and values, where a value is a text, a whole number or a list of texts
(other kinds of values behave as lists that cannot be used); whether a file can be read is given by the file system;
what is printed, `verbose`, and the attributes `fst`, `ED`, `AD`, `IW`, `BD`, `BDbld` and `ADversion`, which repeat
the content of `fst_vt`, are left out.  The state is lost when an exception is raised.
-/
namespace Verif.DeckRead
open Verif.Py

/-- a value of an input file -/
inductive Val where
  | str (s : Str)
  | num (n : Int)
  | list (l : List Str)
deriving DecidableEq, Repr

/-- an input file: its keys and values -/
abbrev File := List (Str × Val)

/-- `FASTInputFile(path)`: a file, a `FileNotFoundError`, or another exception -/
inductive Res where
  | ok (f : File)
  | missing
  | bad
deriving DecidableEq, Repr

/-- file system -/
abbrev FS := Str → Res

inductive Err where
  | key    -- KeyError
  | type   -- TypeError, AttributeError: a value of another kind, or None
  | index  -- IndexError
  | file   -- an exception of the reader of a file
  | main   -- 'Error reading main file' (227)
deriving DecidableEq, Repr

/-- the keys of `fst_vt` which hold a file (56-75) -/
inductive Slot where
  | fst | ed | edBld | edTwr | iw | ad14 | ad15 | adBld | srvd | hd | moordyn | sd | map | bd | bdBld
deriving DecidableEq, Repr

/-- the object: its file name, `readlist`, `inputfiles`, the files of `fst_vt`, `af_data` and `ac_data` -/
structure Deck where
  filename : Str
  readlist : List Str
  inputfiles : Str → Option Str
  vt : Slot → Option File
  af : List (Option File)
  ac : List (Option File)

/-- what 'all' stands for (46, 97) -/
def allKinds : List Str :=
  ["Fst", "ED", "AD", "BD", "BDbld", "EDtwr", "EDbld", "ADbld", "AF", "AC", "IW", "HD", "SrvD", "SD", "MD"].map String.toList

/-- `__init__` without reading (40-80) -/
def new (filename : Str) (readlist : List Str) : Deck where
  filename := filename
  readlist := if "all".toList ∈ readlist then allKinds else "Fst".toList :: readlist
  inputfiles := fun _ => none
  vt := fun _ => none
  af := []
  ac := []

/-- `f[key]` -/
def File.get (f : File) (key : String) : Option Val := (f.find? (fun p => p.1 = key.toList)).map Prod.snd

/-- `key in f.keys()` -/
def File.has (f : File) (key : String) : Bool := (f.get key).isSome

/-- `f[key]` used as a text -/
def getStr (f : File) (key : String) : Except Err Str :=
  match f.get key with
  | some (.str s) => .ok s
  | some _ => .error .type
  | none => .error .key

/-- `f[key]>0` -/
def positive (f : File) (key : String) : Except Err Bool :=
  match f.get key with
  | some (.num n) => .ok (0 < n)
  | some _ => .error .type
  | none => .error .key

/-- `f[key]==n` -/
def equals (f : File) (key : String) (n : Int) : Except Err Bool :=
  match f.get key with
  | some v => .ok (v = .num n)
  | none => .error .key

/-- `s.replace('"','')` -/
def unquote (s : Str) : Str := s.filter (fun c => c ≠ '"')

/-- `unusedNames` (306-308) -/
def unusedNames : List Str := ["unused", "nan", "na", "none"].map String.toList

/-- `_read` (310-337) -/
def readAs (fs : FS) (d : Deck) (rel kind : Str) : Except Err (Deck × Option File) :=
  if kind ∉ d.readlist then .ok (d, none)
  else if lower (basename (unquote rel)) ∈ unusedNames then .ok (d, none)
  else match fs (pjoin (dirname d.filename) (unquote rel)) with
    | .ok f => .ok ({ d with inputfiles := fun k => if k = kind then some (pjoin (dirname d.filename) (unquote rel)) else d.inputfiles k }, some f)
    | .missing => .ok (d, none)
    | .bad => .error .file

/-- `self.fst_vt[slot] = self._read(rel, kind)` -/
def load (fs : FS) (d : Deck) (slot : Slot) (rel kind : Str) : Except Err Deck := do
  let (d, f) ← readAs fs d rel kind
  return { d with vt := fun k => if k = slot then f else d.vt k }

/-- the coordinates of a polar (128-135) -/
def coords (fs : FS) (d : Deck) (name : Str) (polar : File) : Except Err Deck :=
  match polar.get "NumCoords" with
  | none => .error .key
  | some (.str s) =>
    match unquote s with
    | [] => .error .index
    | '@' :: s => do
      let (d, f) ← readAs fs d (pjoin (dirname name) s) "AC".toList
      return { d with ac := d.ac ++ [f] }
    | _ => .ok d
  | some _ => .ok d

/-- one polar (120-135); any exception of its reading gives None (121-125) -/
def polar (fs : FS) (base : Str) (d : Deck) (af : Str) : Except Err Deck :=
  match readAs fs d (unquote (pjoin base af)) "AF".toList with
  | .error _ => .ok { d with af := d.af ++ [none] }
  | .ok (d, none) => .ok { d with af := d.af ++ [none] }
  | .ok (d, some f) => coords fs { d with af := d.af ++ [some f] } (unquote (pjoin base af)) f

/-- the elements of `AFNames` in the loop over them (119): the characters of a text -/
def elements : Val → Except Err (List Str)
  | .list l => .ok l
  | .str s => .ok (s.map (fun c => [c]))
  | .num _ => .error .type

/-- the files of AeroDyn (110-135); the polars are those of `fst_vt['AeroDyn15']` -/
def aeroFiles (fs : FS) (d : Deck) (base : Str) (ad : File) : Except Err Deck := do
  let d ← load fs d .adBld (pjoin base (← getStr ad "ADBlFile(1)")) "ADbld".toList
  let d := { d with af := [] }
  match d.vt .ad15 with
  | none => .error .type
  | some ad15 =>
    match ad15.get "AFNames" with
    | none => .error .key
    | some v => (← elements v).foldlM (polar fs base) d

/-- the main file of AeroDyn and its files (107-135) -/
def aero (fs : FS) (d : Deck) (slot : Slot) (filename : Str) : Except Err Deck := do
  let d ← load fs d slot filename "AD".toList
  match d.vt slot with
  | none => .ok d
  | some ad => aeroFiles fs d (dirname filename) ad

/-- `readAD` (87-142); `slot` is that of the key, AeroDyn14 or AeroDyn15 -/
def readAD (fs : FS) (d : Deck) (filename : Option Str) (readlist : Option (List Str)) (slot : Slot) : Except Err Deck := do
  let old := d.readlist
  let d := match readlist with
    | none => d
    | some l => { d with readlist := if "all".toList ∈ l then allKinds else l }
  let name ← match filename with
    | some n => .ok n
    | none => match d.vt .fst with
      | none => .error .type
      | some main => getStr main "AeroFile"
  let d ← aero fs d slot name
  return { d with readlist := old }

/-- `ED_twr_relpath` (168-172) -/
def twrRel (main ed : File) : Str :=
  match getStr main "EDFile", getStr ed "TwrFile" with
  | .ok e, .ok t => pjoin (unquote (dirname e)) (unquote t)
  | _, _ => "none".toList

/-- `ED_bld_relpath` (175-182) -/
def bldRel (main ed : File) : Str :=
  match getStr main "EDFile", getStr ed (if ed.has "BldFile(1)" then "BldFile(1)" else "BldFile1") with
  | .ok e, .ok t => pjoin (dirname (unquote e)) (unquote t)
  | _, _ => "none".toList

/-- ElastoDyn (250-256) -/
def stepED (fs : FS) (main : File) (d : Deck) : Except Err Deck :=
  if main.has "EDFile" then do
    let d ← load fs d .ed (← getStr main "EDFile") "ED".toList
    match d.vt .ed with
    | none => .ok d
    | some ed => do
      let d ← load fs d .edTwr (twrRel main ed) "EDtwr".toList
      load fs d .edBld (bldRel main ed) "EDbld".toList
  else .ok d

/-- a module read when a condition holds (242-243, 259-260, 268-284) -/
def stepIf (fs : FS) (main : File) (cond : Except Err Bool) (slot : Slot) (ref kind : String) (d : Deck) : Except Err Deck := do
  if ← cond then load fs d slot (← getStr main ref) kind.toList else .ok d

/-- AeroDyn (263-265) -/
def stepAD (fs : FS) (main : File) (d : Deck) : Except Err Deck := do
  if ← positive main "CompAero" then
    readAD fs d none (some d.readlist) (if ← equals main "CompAero" 1 then .ad14 else .ad15)
  else .ok d

/-- BeamDyn (287-292) -/
def stepBD (fs : FS) (main : File) (d : Deck) : Except Err Deck := do
  if ← equals main "CompElast" 2 then
    let ref ← getStr main "BDBldFile(1)"
    let d ← load fs d .bd ref "BD".toList
    match d.vt .bd with
    | none => .ok d
    | some bd => load fs d .bdBld (pjoin (dirname ref) (← getStr bd "BldFile")) "BDbld".toList
  else .ok d

/-- a regular OpenFAST file (247-292) -/
def readOF2 (fs : FS) (main : File) (d : Deck) : Except Err Deck := do
  let d ← stepED fs main d
  let d ← stepIf fs main (positive main "CompInflow") .iw "InflowFile" "IW" d
  let d ← stepAD fs main d
  let d ← stepIf fs main (positive main "CompServo") .srvd "ServoFile" "SrvD" d
  let d ← stepIf fs main (equals main "CompHydro" 1) .hd "HydroFile" "HD" d
  let d ← stepIf fs main (equals main "CompSub" 1) .sd "SubFile" "HD" d
  let d ← stepIf fs main (equals main "CompMooring" 1) .map "MooringFile" "MD" d
  let d ← stepIf fs main (equals main "CompMooring" 2) .moordyn "MooringFile" "MD" d
  stepBD fs main d

/-- a driver of AeroDyn (239-245) -/
def readDriver (fs : FS) (main : File) (d : Deck) : Except Err Deck := do
  let d ← stepIf fs main (positive main "CompInflow") .iw "InflowFile" "IW" d
  readAD fs d none none .ad15

/-- `read` (220-304) -/
def read (fs : FS) (d : Deck) (filename : Option Str) : Except Err Deck := do
  let d := match filename with
    | none => d
    | some n => { d with filename := n }
  let d ← load fs d .fst (basename d.filename) "Fst".toList
  match d.vt .fst with
  | none => .error .main
  | some main =>
    if main.has "NumTurbines" then readDriver fs main d
    else if main.has "InterpOrder" then readOF2 fs main d
    else .ok d

/-- `FASTInputDeck(filename, readlist)` (24-84); nothing is read without a name -/
def open_ (fs : FS) (filename : Str) (readlist : List Str) : Except Err Deck :=
  if filename = [] then .ok (new filename readlist) else read fs (new filename readlist) none

end Verif.DeckRead
