import Verif.Py.Path
import Verif.Py.Dec
/-!
# Writing a FAST input deck — `/repo/weio/fast_input_deck.py:341-426`

The files of the modules are values of a type `δ`; `none` stands for a module that was not
read. Writing a module file succeeds and stores the data (see the models of the single
files for their texts). Simplifications: the flags are natural numbers; the three blade
references of the main file and of ElastoDyn, which all get the same name, are one.
-/
namespace Verif.Deck
open Verif.Py

/-- the files of a deck -/
inductive Mod where
  | ED | IW | BD | AD | HD | SD | MD | SvD | Ice | EDbld | EDtwr | BDbld
deriving DecidableEq, Repr

/-- the middle part of the file name of a module (fast_input_deck.py:355-366) -/
def Mod.tag : Mod → Str
  | .ED => "ED".toList
  | .IW => "IW".toList
  | .BD => "BD".toList
  | .AD => "AD".toList
  | .HD => "HD".toList
  | .SD => "SD".toList
  | .MD => "MD".toList
  | .SvD => "SvD".toList
  | .Ice => "Ice".toList
  | .EDbld => "ED_bld".toList
  | .EDtwr => "ED_twr".toList
  | .BDbld => "BD_bld".toList

/-- the flags of the main file -/
structure Flags where
  elast : Nat
  inflow : Nat
  aero : Nat
  servo : Nat
  hydro : Nat
  sub : Nat
  mooring : Nat
  ice : Nat
deriving DecidableEq, Repr

/-- the data of the deck, `self.fst_vt`; the mooring data are those of MAP or MoorDyn -/
structure Deck (δ : Type) where
  flags : Flags
  ed : Option δ
  edTwr : Option δ
  edBld : Option δ
  bd : Option δ
  bdBld : Option δ
  iw : Option δ
  ad15 : Option δ
  srvd : Option δ
  hd : Option δ
  sd : Option δ
  map : Option δ
  moordyn : Option δ

/-- the arguments of `write` -/
structure Args where
  filename : Str
  pre : Str := []
  suf : Str := []
  directory : Option Str := none

/-- fast_input_deck.py:346-347 -/
def Args.dir (a : Args) : Str := match a.directory with
  | none => dirname a.filename
  | some d => d

/-- whether a module gets a name (the conditions of fast_input_deck.py:355-366) -/
def used (f : Flags) : Mod → Bool
  | .ED => f.elast > 0
  | .IW => f.inflow > 0
  | .BD => f.elast = 2
  | .AD => f.aero > 0
  | .HD => f.hydro > 0
  | .SD => f.sub > 0
  | .MD => f.mooring > 0
  | .SvD => f.servo > 0
  | .Ice => f.ice > 0
  | .EDbld => f.elast > 0
  | .EDtwr => f.elast > 0
  | .BDbld => f.elast > 0

/-- the file name of a module (fast_input_deck.py:355-366) -/
def path (f : Flags) (a : Args) (m : Mod) : Str :=
  if used f m then pjoin a.dir (a.pre ++ m.tag ++ a.suf ++ ".dat".toList) else "none".toList

/-- the references of the main file -/
inductive Ref where
  | EDFile | BDBldFile | InflowFile | AeroFile | ServoFile | HydroFile | SubFile | MooringFile | IceFile
deriving DecidableEq, Repr

/-- the module of a reference: what the user expects -/
def Ref.mod : Ref → Mod
  | .EDFile => .ED
  | .BDBldFile => .BD
  | .InflowFile => .IW
  | .AeroFile => .AD
  | .ServoFile => .SvD
  | .HydroFile => .HD
  | .SubFile => .SD
  | .MooringFile => .MD
  | .IceFile => .Ice

/-- the references, without their quotes (fast_input_deck.py:369-379); `ServoFile` gets the name
of the AeroDyn file (line 375) -/
def refs (f : Flags) (a : Args) : Ref → Str
  | .EDFile => basename (path f a .ED)
  | .BDBldFile => basename (path f a .BD)
  | .InflowFile => basename (path f a .IW)
  | .AeroFile => basename (path f a .AD)
  | .ServoFile => basename (path f a .AD)
  | .HydroFile => basename (path f a .HD)
  | .SubFile => basename (path f a .SD)
  | .MooringFile => basename (path f a .MD)
  | .IceFile => basename (path f a .Ice)

/-- contents of files: the main file with its references, a module file with its data and the
references set by this write (tower and blade files) -/
inductive Content (δ : Type) where
  | main (refs : Ref → Str)
  | mod (data : δ) (links : List Str)

inductive Err where
  | attribute      -- a module is None
  | notImplemented -- fast_input_deck.py:418
deriving DecidableEq, Repr

/-- file system -/
abbrev FS (δ : Type) := Str → Option (Content δ)

/-- one action of the writer: writing a file, or an exception -/
abbrev Act (δ : Type) := Except Err (Str × Content δ)

/-- `self.fst_vt[..].write(name)`: an AttributeError when the module is None -/
def wr (d : Option δ) (p : Str) (links : List Str) : Act δ :=
  match d with
  | none => .error .attribute
  | some x => .ok (p, .mod x links)

/-- `ED['TwrFile'] = ...` needs ElastoDyn: an exception when it is None (fast_input_deck.py:385) -/
def need (d : Option δ) : List (Act δ) :=
  match d with
  | none => [.error .attribute]
  | some _ => []

/-- references set in the ElastoDyn file (fast_input_deck.py:385-396) -/
def edLinks (f : Flags) (a : Args) : List Str :=
  (if f.elast > 0 then [basename (path f a .EDtwr)] else []) ++
  (if f.elast = 1 then [basename (path f a .EDbld)] else [])

/-- the actions of `write` in their order (fast_input_deck.py:380-424) -/
def plan (d : Deck δ) (a : Args) : List (Act δ) :=
  let f := d.flags
  [.ok (a.filename, .main (refs f a))] ++
  (if f.elast > 0 then need d.ed ++ [wr d.edTwr (path f a .EDtwr) []] else []) ++
  (if f.elast = 1 then [wr d.edBld (path f a .EDbld) []]
   else if f.elast = 2 then need d.bd ++ [wr d.bdBld (path f a .BDbld) [],
      wr d.bd (path f a .BD) [basename (path f a .BDbld)]]
   else []) ++
  [wr d.ed (path f a .ED) (edLinks f a)] ++
  (if f.inflow > 0 then [wr d.iw (path f a .IW) []] else []) ++
  (if f.aero > 0 then [wr d.ad15 (path f a .AD) []] else []) ++
  (if f.servo > 0 then [wr d.srvd (path f a .SvD) []] else []) ++
  (if f.hydro = 1 then [wr d.hd (path f a .HD) []] else []) ++
  (if f.sub = 1 then [wr d.sd (path f a .SD) []] else if f.sub = 2 then [.error .notImplemented] else []) ++
  (if f.mooring = 1 then [wr d.map (path f a .MD) []] else []) ++
  (if f.mooring = 2 then [wr d.moordyn (path f a .MD) []] else [])

/-- the actions are done until one raises -/
def exec (fs : FS δ) : List (Act δ) → FS δ × Option Err
  | [] => (fs, none)
  | .error e :: _ => (fs, some e)
  | .ok (p, c) :: l => exec (fun q => if q = p then some c else fs q) l

/-- `FASTInputDeck.write` (fast_input_deck.py:341-424) -/
def write (fs : FS δ) (d : Deck δ) (a : Args) : FS δ × Option Err := exec fs (plan d a)

/-- where a reference of a file leads: relative to the directory of that file
(as `_read` does, fast_input_deck.py:148, 328) -/
def resolve (file ref : Str) : Str := pjoin (dirname file) ref

end Verif.Deck
