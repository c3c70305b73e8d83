import Verif.Model.FastDict
import Verif.Py.Num
/-!
# Writing AeroDyn polars — `/repo/weio/fast_input_file.py:1556-1588` (`ADPolarFile`)

`toString` (:653-734) with the encoding of the text is a parameter, as are the Python values.
-/
namespace Verif.Polar
open Verif.Py Verif.FastDict

abbrev Bytes := List UInt8

/-- exceptions -/
inductive Err where
  | key          -- KeyError of `self[...]`
  | type         -- `range` of something that is no integer
  | attr         -- `.shape` of something that is no array
  | os           -- the file cannot be opened
  | text         -- any exception of `toString()` or of the encoding
deriving DecidableEq, Repr

/-- Python values and `toString` -/
structure Env (V : Type) where
  asInt : V → Option Int          -- value of an integer
  rows : V → Option Nat           -- `.shape[0]`
  ofNat : Nat → V                 -- `.shape[0]` as a value
  text : Data V → Option Bytes    -- `toString()`, encoded

/-- `'_{}'.format(iTab+1)` (:1564, :1577) -/
def offset (iTab : Nat) : Str := '_' :: (toString (iTab + 1)).toList

/-- `self['NumAlf'+off] = self['AFCoeff'+off].shape[0]` (:1561, :1565) -/
def syncTab (E : Env V) (d : Data V) (off : Str) : Except Err (Data V) :=
  match getitem d ("AFCoeff".toList ++ off) with
  | none => .error .key
  | some v =>
    match E.rows v with
    | none => .error .attr
    | some n => .ok (setitem d ("NumAlf".toList ++ off) (E.ofNat n))

/-- the loop of `_writeSanityChecks` (:1563-1565): an exception keeps what was set before -/
def syncTabs (E : Env V) : List Str → Data V → Data V × Except Err Unit
  | [], d => (d, .ok ())
  | off :: offs, d =>
    match syncTab E d off with
    | .error e => (d, .error e)
    | .ok d' => syncTabs E offs d'

/-- `self['NumTabs']` (:1558, :1570) -/
def numTabs (E : Env V) (d : Data V) : Except Err Int :=
  match getitem d "NumTabs".toList with
  | none => .error .key
  | some v =>
    match E.asInt v with
    | none => .error .type
    | some n => .ok n

/-- the endings of the labels of each table: none for a single table (:1559-1565) -/
def offsets (n : Int) : List Str := if n = 1 then [[]] else (List.range n.toNat).map offset

/-- the labels that are shortened (:1575) -/
def labs : List Str := ["Re","Ctrl","UserProp","alpha0","alpha1","alpha2","eta_e","C_nalpha","T_f0","T_V0","T_p",
  "T_VL","b1","b2","b5","A1","A2","A5","S1","S2","S3","S4","Cn1","Cn2","St_sh","Cd0","Cm0","k0","k1","k2","k3",
  "k1_hat","x_cp_bar","UACutout","filtCutOff","InclUAdata","NumAlf","AFCoeff"].map String.toList

/-- `self.data[i]['label'] = lab` -/
def setLabel (d : Data V) (i : Nat) (lab : Str) : Data V := d.modify i (fun e => { e with label := lab })

/-- one label of one table (:1579-1582): index 0 is left alone -/
def strip1 (off : Str) (d : Data V) (lab : Str) : Data V :=
  match getIDSafe d (lab ++ off) with
  | none => d
  | some i => if i > 0 then setLabel d i lab else d

/-- removal of the endings (:1577-1582) -/
def stripAll (offs : List Str) (d : Data V) : Data V := offs.foldl (fun d off => labs.foldl (strip1 off) d) d

/-- restoring the labels (:1587-1588) -/
def restore : List Str → Data V → Data V
  | l :: ls, e :: d => { e with label := l } :: restore ls d
  | _, d => d

/-- `open(filename,'w')` and `f.write(self.toString())` (:750-751, :1584-1585): content of the file
and outcome; `can`: the file can be opened -/
def output (E : Env V) (can : Bool) (old : Option Bytes) (d : Data V) : Option Bytes × Except Err Unit :=
  if can then
    match E.text d with
    | some b => (some b, .ok ())
    | none => (some [], .error .text)
  else (old, .error .os)

/-- `_write` (:1569-1588): object, file and outcome -/
def write (E : Env V) (can : Bool) (old : Option Bytes) (d : Data V) : Data V × Option Bytes × Except Err Unit :=
  match numTabs E d with
  | .error e => (d, old, .error e)
  | .ok n =>
    match syncTabs E (offsets n) d with
    | (d1, .error e) => (d1, old, .error e)
    | (d1, .ok ()) =>
      if n = 1 then
        let r := output E can old d1
        (d1, r.1, r.2)
      else
        let labels := d1.map Entry.label
        let d2 := stripAll (offsets n) d1
        match output E can old d2 with
        | (f, .error e) => (d2, f, .error e)
        | (f, .ok ()) => (restore labels d2, f, .ok ())

end Verif.Polar
