import Verif.Py.Str
/-!
# The base class `File` — `/repo/weio/file.py:20-45`

The file system is a partial map from paths to contents.  The subclass hooks
`_read` and `_write` are parameters: `_read` may do anything with the content
of the current file, `_write` any change of the file system.
Simplification: keyword arguments are fixed; a path is a regular file exactly
when it is in the map's domain.
-/
namespace Verif.FileBase
open Verif.Py

/-- file system: `os.path.isfile(p)` iff `fs p ≠ none`; `st_size` = length. -/
abbrev FS := Str → Option (List UInt8)

inductive Err (ε : Type) where
  | noFilename          -- Exception('No filename provided')   file.py:31, 43
  | notFound            -- OSError(2, 'File not found')        file.py:33
  | emptyFile           -- EmptyFileError                      file.py:35
  | hook (e : ε)        -- exception of `_read` / `_write`
deriving Repr, DecidableEq

/-- The subclass: parsed data `δ`, hook exceptions `ε`. -/
structure Hooks (δ ε : Type) where
  parse : Str → List UInt8 → Except ε δ
  emit : δ → Str → FS → FS × Option ε

/-- Object state: `self.filename` (`none` for `None`; Python treats `''` the
same way in `if not self.filename`) and the data loaded last. -/
structure Obj (δ : Type) where
  filename : Option Str
  data : δ

/-- `if filename: self.filename = filename` (file.py:28-29, 40-41): `None` and
the empty string are falsy. -/
def setName (o : Obj δ) (filename : Option Str) : Obj δ :=
  match filename with
  | some (c :: s) => { o with filename := some (c :: s) }
  | _ => o

/-- `not self.filename` (file.py:30, 42) -/
def currentName (o : Obj δ) : Option Str :=
  match o.filename with
  | some (c :: s) => some (c :: s)
  | _ => none

/-- Result of a call: new object, new file system, outcome, and the list of
paths on which the hook was run. -/
structure Res (δ ε : Type) where
  obj : Obj δ
  fs : FS
  out : Except (Err ε) Unit
  ran : List Str

/-- `File.read` (file.py:27-37). -/
def read (h : Hooks δ ε) (fs : FS) (o : Obj δ) (filename : Option Str) : Res δ ε :=
  let o := setName o filename
  match currentName o with
  | none => ⟨o, fs, .error .noFilename, []⟩
  | some p =>
    match fs p with
    | none => ⟨o, fs, .error .notFound, []⟩
    | some [] => ⟨o, fs, .error .emptyFile, []⟩
    | some (b :: bs) =>
      match h.parse p (b :: bs) with
      | .ok d => ⟨{ o with data := d }, fs, .ok (), [p]⟩
      | .error e => ⟨o, fs, .error (.hook e), [p]⟩

/-- `File.write` (file.py:39-45). -/
def write (h : Hooks δ ε) (fs : FS) (o : Obj δ) (filename : Option Str) : Res δ ε :=
  let o := setName o filename
  match currentName o with
  | none => ⟨o, fs, .error .noFilename, []⟩
  | some p =>
    let r := h.emit o.data p fs
    ⟨o, r.1, match r.2 with | none => .ok () | some e => .error (.hook e), [p]⟩

inductive Op where
  | read (filename : Option Str)
  | write (filename : Option Str)
deriving Repr

def Op.name : Op → Option Str
  | .read f => f
  | .write f => f

/-- one call -/
def step (h : Hooks δ ε) (fs : FS) (o : Obj δ) : Op → Res δ ε
  | .read f => read h fs o f
  | .write f => write h fs o f

/-- a history of calls; exceptions are caught by the caller and the history goes on. -/
def run (h : Hooks δ ε) (fs : FS) (o : Obj δ) : List Op → FS × Obj δ
  | [] => (fs, o)
  | op :: ops => let r := step h fs o op; run h r.fs r.obj ops

/-! ## Classes with their own `read` and `write`

The guards are copied into these classes; what differs is whether the name `EmptyFileError`
is known in the module, and whether the argument or the remembered name is opened. -/

/-- how the copy of the guards differs from the base class -/
structure Guard where
  emptyKnown : Bool     -- `EmptyFileError` is imported
  readsArg : Bool       -- `open(filename)` instead of `open(self.filename)` when reading
  writesArg : Bool      -- the same when writing
deriving DecidableEq, Repr

/-- the classes that override `read` (and mostly `write`) -/
inductive Cls where
  | base           -- file.py:27-45, inherited by all others
  | bladed         -- bladed_out_file.py:9, 253-264
  | bmodes         -- bmodes_out_file.py:9, 48-70
  | cactusElement  -- cactus_element_file.py:6, 28-48
  | cactus         -- cactus_file.py:6, 28-48
  | fastInput      -- fast_input_file.py:11, 297-307, 736-742
  | fastSummary    -- fast_summary_file.py:9, 50-61
  | hawc2Ae        -- hawc2_ae_file.py:9, 34-55
  | hawc2Pc        -- hawc2_pc_file.py:10, 35-56
  | mannBox        -- mannbox_file.py:13, 89-109, 152-160
  | raawmat        -- raawmat_file.py:114, 153-175
  | rosco          -- rosco_performance_file.py:9, 48-70
  | tecplot        -- tecplot_file.py:14, 163-192
  | turbsim        -- turbsim_file.py:13, 61-76, 110-120
  | vtk            -- vtk_file.py:15, 89-100, 143-173
deriving DecidableEq, Repr

/-- the guards of each class (lines as above) -/
def Cls.guard : Cls → Guard
  | .bladed | .bmodes | .cactusElement | .fastInput | .raawmat | .rosco => ⟨false, false, false⟩
  | .tecplot => ⟨true, true, false⟩
  | .vtk => ⟨true, true, true⟩
  | .base | .cactus | .fastSummary | .hawc2Ae | .hawc2Pc | .mannBox | .turbsim => ⟨true, false, false⟩

/-- outcomes of the overriding classes -/
inductive ErrO (ε : Type) where
  | std (e : Err ε)
  | nameError       -- `EmptyFileError` is not defined
  | badOpen         -- `open(None)`: TypeError (in Tecplot turned into WrongFormatError), `open('')`: FileNotFoundError
deriving DecidableEq, Repr

/-- result of a call on an overriding class -/
structure ResO (δ ε : Type) where
  obj : Obj δ
  fs : FS
  out : Except (ErrO ε) Unit
  ran : List Str

/-- the file that is opened: the argument, or the remembered name -/
def opened (useArg : Bool) (o : Obj δ) (filename : Option Str) : Option Str :=
  if useArg then (match filename with
    | some (c :: s) => some (c :: s)
    | _ => none)
  else currentName o

/-- `read` of a class with its own guards -/
def readO (g : Guard) (h : Hooks δ ε) (fs : FS) (o : Obj δ) (filename : Option Str) : ResO δ ε :=
  let o := setName o filename
  match currentName o with
  | none => ⟨o, fs, .error (.std .noFilename), []⟩
  | some p =>
    match fs p with
    | none => ⟨o, fs, .error (.std .notFound), []⟩
    | some [] => ⟨o, fs, .error (if g.emptyKnown then .std .emptyFile else .nameError), []⟩
    | some (b :: bs) =>
      match opened g.readsArg o filename with
      | none => ⟨o, fs, .error .badOpen, []⟩
      | some q =>
        match h.parse q (b :: bs) with
        | .ok d => ⟨{ o with data := d }, fs, .ok (), [q]⟩
        | .error e => ⟨o, fs, .error (.std (.hook e)), [q]⟩

/-- `write` of a class with its own guards -/
def writeO (g : Guard) (h : Hooks δ ε) (fs : FS) (o : Obj δ) (filename : Option Str) : ResO δ ε :=
  let o := setName o filename
  match currentName o with
  | none => ⟨o, fs, .error (.std .noFilename), []⟩
  | some _ =>
    match opened g.writesArg o filename with
    | none => ⟨o, fs, .error .badOpen, []⟩
    | some q =>
      let r := h.emit o.data q fs
      ⟨o, r.1, match r.2 with | none => .ok () | some e => .error (.std (.hook e)), [q]⟩

/-- `File.__init__(filename)` (file.py:21-25) without a name. -/
def new (d : δ) : Obj δ := ⟨none, d⟩

end Verif.FileBase
