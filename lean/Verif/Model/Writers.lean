import Verif.Py.Str
import Verif.Py.Num
import Verif.Model.Htc
/-!
# What the writers do to the file, step by step

Every `write` of the library is a sequence of three kinds of steps: a computation that may
raise, `open(name,'w')` (or `'wb'`, `np.savetxt`), which empties the file, and the output of one
piece, whose own computation may raise.  An exception leaves the pieces written before in the
file (`with` closes it, and so does the garbage collector for rosco).

Modelled: the order of these steps and the states in which they raise, class by class.
Simplifications: disks are never full; the text of finite numbers and of headers is a parameter
or left out where it does not matter for the order of the steps; Excel, NetCDF and Parquet files
are written by other packages and are not modelled.
-/
namespace Verif.Writers
open Verif.Py

abbrev Bytes := List UInt8

/-- files by name -/
abbrev FS := Str → Option Bytes

/-- exceptions -/
inductive Err where
  | os            -- the file cannot be opened
  | notImpl       -- NotImplementedError
  | type          -- TypeError
  | name          -- NameError
  | key           -- KeyError
  | value         -- ValueError
  | overflow      -- OverflowError
  | attr          -- AttributeError
  | index         -- IndexError
  | unicode       -- UnicodeEncodeError
  | assertion     -- AssertionError
deriving DecidableEq, Repr

/-- one step of a writer -/
inductive Act where
  | check (r : Except Err Unit)               -- computation before the output
  | openW (p : Str)                           -- `open(p,'w')`: empties or creates
  | emit (p : Str) (r : Except Err Bytes)     -- `f.write(...)`

/-- the new files after `fs p` is set -/
def FS.set (fs : FS) (p : Str) (b : Bytes) : FS := fun q => if q = p then some b else fs q

/-- the steps one after the other, up to the first exception; `can p` says whether `p` can be
opened for writing -/
def exec (can : Str → Bool) (fs : FS) : List Act → FS × Except Err Unit
  | [] => (fs, .ok ())
  | .check (.ok ()) :: as => exec can fs as
  | .check (.error e) :: _ => (fs, .error e)
  | .openW p :: as => if can p then exec can (fs.set p []) as else (fs, .error .os)
  | .emit p (.ok b) :: as => exec can (fs.set p ((fs p).getD [] ++ b)) as
  | .emit _ (.error e) :: _ => (fs, .error e)

/-- a floating point number; formatting of the finite ones is a parameter -/
inductive X where
  | fin (q : Int)     -- Simplification: which finite number does not matter
  | inf
  | nan
deriving DecidableEq, Repr

/-- parameters: encoding of texts (none: UnicodeEncodeError), texts and bytes of numbers -/
structure Env where
  enc : Str → Option Bytes
  fmt : X → Str
  pack : X → Option Bytes      -- `struct.pack('<f', x)`, none: OverflowError

/-- `f.write(text)` -/
def emitText (E : Env) (p : Str) (s : Str) : Act :=
  .emit p (match E.enc s with | some b => .ok b | none => .error .unicode)

/-- `f.write(...)` of a text that is computed in the argument -/
def emitMade (E : Env) (p : Str) (r : Except Err Str) : Act :=
  match r with
  | .ok s => emitText E p s
  | .error e => .emit p (.error e)

/-! ## OpenFAST input files (`fast_input_file.py:653-734, 748-751`) -/

/-- an entry of the file: texts, and tables of numbers.  Simplification: header lines of tables
are part of the text entries. -/
inductive Ent where
  | text (s : Str)
  | table (rows : List (List X))
deriving DecidableEq, Repr

/-- `'{:15.0f}'.format(x) if int(x)==x else '{:15.8e}'.format(x)` (:706): `int` raises for what
is not finite -/
def cellText (E : Env) : X → Except Err Str
  | .fin q => .ok (E.fmt (.fin q))
  | .inf => .error .overflow
  | .nan => .error .value

/-- a row or table as text: pieces in order, the first exception counts -/
def joinAll (sep : Str) : List (Except Err Str) → Except Err Str
  | [] => .ok []
  | [r] => r
  | r :: rs =>
    match r with
    | .error e => .error e
    | .ok s =>
      match joinAll sep rs with
      | .error e => .error e
      | .ok t => .ok (s ++ sep ++ t)

/-- one entry of `toString` (:682-706) -/
def entText (E : Env) : Ent → Except Err Str
  | .text s => .ok s
  | .table rows => joinAll ['\n'] (rows.map fun r => joinAll ['\t'] (r.map (cellText E)))

/-- `toString` (:681-734) -/
def inputText (E : Env) (es : List Ent) : Except Err Str := joinAll ['\n'] (es.map (entText E))

/-! ## The classes -/

/-- what a `write` meets: one constructor per kind of writer, with the part of the object's
state on which its steps depend -/
inductive Writer where
  /-- `File._write` (file.py:85-86), inherited by Bladed, Flex blade/doc/out/wave, HAWCStab2, TDMS
  and summary files, and the `_write` of BModes (bmodes_out_file.py:103-108) and RAAWMat
  (raawmat_file.py:181-186) -/
  | notImpl
  /-- `FASTInputFileBase._write` (fast_input_file.py:748-751); `sanity` is the outcome of
  `_writeSanityChecks` (base class: nothing; ExtPtfm :1781-1788: assertions; blades and polars:
  KeyError for a missing table) -/
  | fastInput (sanity : Except Err Unit) (es : List Ent)
  /-- `f.write(self.toString)` without call: Flex profiles (flex_profile_file.py:127-129), Cactus
  (cactus_file.py:366-369), Cactus elements (cactus_element_file.py:87-90) -/
  | unbound
  /-- `write_rotor_performance` (rosco_performance_file.py:83-86, 176-191): `now` is not defined;
  `keys`: the six keys of the object are there -/
  | rosco (keys : Bool)
  /-- linearization files (fast_linearization_file.py:151-157): `toString` is empty -/
  | linear
  /-- TurbSim time series (turbsim_ts_file.py:60-89): the text is none when a key is missing -/
  | turbsimTS (text : Option Str)
  /-- ASCII output (fast_output_file.py:113-119); units may be None -/
  | fastOut (names : List Str) (units : Option (List Str)) (rows : List (List X))
  /-- Mann box (mannbox_file.py:152-163); none: no key 'field' -/
  | mann (field : Option (List (List (List X))))
  /-- Tecplot (tecplot_file.py:185-206): title, variables, further lines -/
  | tecplot (title : Option Str) (vars : Option (List Str)) (lines : List Str)
  /-- HAWC2 (hawc2_dat_file.py:104-150): rows of the table, lists of the info, some of which may be None -/
  | hawc2 (rows : List (List X)) (head : Str) (names descr units : Option (List Str))
  /-- CSV (csv_file.py:255-275); separator and data may be None -/
  | csv (header : List Str) (sep : Option Char) (cols : List Str) (data : Option (List (List Str)))
  /-- HTC (hawc2_htc_file.py:27-28, htc_file.py:227-244): none when `str` of the contents raises -/
  | htc (text : Option Str)

/-- lines with line ends -/
def unlines (ls : List Str) : Str := ls.flatMap (· ++ ['\n'])

/-- one plane of a Mann box: `struct.pack` of the flipped rows (mannbox_file.py:162-163) -/
def packAll (E : Env) : List X → Except Err Bytes
  | [] => .ok []
  | x :: xs =>
    match E.pack x with
    | none => .error .overflow
    | some b =>
      match packAll E xs with
      | .error e => .error e
      | .ok bs => .ok (b ++ bs)

/-- name of the data file (hawc2_dat_file.py:105-112).  Simplification: extensions in lower case
that occur once in the name. -/
def datName (p : Str) : Str :=
  if ".dat".toList.isSuffixOf p then p
  else if ".sel".toList.isSuffixOf p then p.take (p.length - 4) ++ ".dat".toList
  else p ++ ".dat".toList

/-- name of the channel file (hawc2_dat_file.py:113) -/
def selName (p : Str) : Str := (datName p).take ((datName p).length - 4) ++ ".sel".toList

/-- the channel lines of a `.sel` file (hawc2_dat_file.py:147-150): `zip` stops at the shortest list -/
def chanLines : List Str → List Str → List Str → List Str
  | n :: ns, d :: ds, u :: us => (n ++ ' ' :: (u ++ ' ' :: d)) :: chanLines ns ds us
  | _, _, _ => []

/-- the steps of `_write` / `write` with the name `p` -/
def Writer.acts (E : Env) (p : Str) : Writer → List Act
  | .notImpl => [.check (.error .notImpl)]
  | .fastInput sanity es => [.check sanity, .openW p, emitMade E p (inputText E es)]
  | .unbound => [.openW p, .emit p (.error .type)]
  | .rosco keys =>
    [.check (if keys then .ok () else .error .key), .openW p,
      emitText E p "# ----- Rotor performance tables for the  wind turbine ----- \n".toList,
      .emit p (.error .name)]
  | .linear => [.openW p, emitText E p []]
  | .turbsimTS text =>
    [.openW p, emitMade E p (match text with | some s => .ok s | none => .error .key)]
  | .fastOut names units rows =>
    [.openW p, emitText E p (joinWith ['\t'] names ++ ['\n']),
      emitMade E p (match units with
        | some us => .ok (joinWith ['\t'] us ++ ['\n'])
        | none => .error .type),
      emitText E p (joinWith ['\n'] (rows.map fun r => joinWith ['\t'] (r.map E.fmt)))]
  | .mann none => [.check (.error .key)]
  | .mann (some field) =>
    .check (.ok ()) :: .openW p :: field.map fun plane => .emit p (packAll E plane.reverse.flatten)
  | .tecplot title vars ls =>
    .openW p :: ((match title with | some t => [emitText E p ("TITLE = ".toList ++ t ++ ['\n'])] | none => []) ++
      (emitMade E p (match vars with
        | some vs => .ok ("VARIABLES = ".toList ++ joinWith [','] vs ++ ['\n'])
        | none => .error .key) :: ls.map fun l => emitText E p (l ++ ['\n'])))
  | .hawc2 rows head names descr units =>
    [.check (match rows with | [] => .error .index | _ => .ok ()), .openW (datName p),
      emitText E (datName p) (unlines (rows.map fun r => joinWith [' '] (r.map E.fmt))),
      .openW (selName p), emitText E (selName p) head,
      emitMade E (selName p) (match names, descr, units with
        | some ns, some ds, some us => .ok (unlines (chanLines ns ds us))
        | _, _, _ => .error .type)]
  | .csv header sep cols data =>
    if header.length > 0 then
      [.openW p, emitText E p (unlines header),
        emitMade E p (match data, sep with
          | some rows, some c => .ok (unlines (rows.map (joinWith [c])))
          | _, _ => .error .attr)]
    else match data with
      | none => [.check (.error .attr)]
      | some rows =>
        [.openW p, emitMade E p (match sep with
          | some c => .ok (unlines ((cols :: rows).map (joinWith [c])))
          | none => .error .type)]
  | .htc text => [.openW p, emitMade E p (match text with | some s => .ok s | none => .error .index)]

/-- `write(p)`: the files afterwards and the exception, if any -/
def write (E : Env) (can : Str → Bool) (fs : FS) (p : Str) (w : Writer) : FS × Except Err Unit :=
  exec can fs (w.acts E p)

/-- HAWC2 htc file given by its contents -/
def htcWriter (P : Htc.Flt) (f : Htc.File P.F) : Writer := .htc (Htc.fileText P f)

end Verif.Writers
