import Verif.Model.FlexPro
/-!
# Small YAML files — `/repo/weio/mini_yaml.py`

`yaml_read` (6-88), with `dictIn=None`.

Simplifications
* the file is its list of lines (`splitlines`);
* `int(s)` and `float(s)` are parameters, given the text without surrounding blanks, which Python
  ignores; `np.array(texts).astype(int)`, `.astype(float)` read each text in the same way;
* a row is assigned to a row of `np.zeros((n, k))`: numpy takes a row of the right length, repeats a
  row of one number, and refuses any other (`Rosco.fitRow`).
-/
namespace Verif.Yaml
open Verif.Py
open Verif.Rosco (fitRow)
open Verif.FlexPro (setKey)

/-- exceptions: `IndexError` (the message of line 87 has two places and one value), `UnboundLocalError`,
`Exception('Cannot convert …')`, `ValueError` -/
inductive YErr where
  | index | unbound | conv | value
deriving DecidableEq, Repr

/-- the texts of numbers -/
structure Num (F : Type) where
  int : Str → Option Int
  flt : Str → Option F

/-- values of the dictionary -/
inductive Val (F : Type) where
  | int (i : Int)
  | float (x : F)
  | str (s : Str)
  | ints (m : List (List Int))
  | floats (m : List (List F))
deriving DecidableEq

/-- `cleanComment` (28-30) -/
def cleanComment (l : Str) : Str := strip ((splitOn '#' l).headD [])

/-- the line starts with a dash (40-42) -/
def isDash (l : Str) : Bool := (strip l).head? = some '-'

/-- the pieces of a dash line (47, 61) -/
def pieces (l : Str) : List Str :=
  splitOn ',' (((cleanComment l).drop 1).filter (fun c => c ≠ ']' && c ≠ '['))

/-- pieces of the first line (48) -/
def firstElems (l : Str) : List Str := ((pieces l).map strip).filter (· ≠ [])

/-- pieces of a row (62): blank pieces are kept -/
def rowElems (l : Str) : List Str := ((pieces l).filter (· ≠ [])).map strip

/-- the rows (58-62) -/
def fill {α : Type} (conv : Str → Option α) (k : Nat) (ls : List Str) : Option (List (List α)) :=
  ls.mapM (fun l => ((rowElems l).mapM conv).bind (fitRow k))

/-- `readDashList` (32-63): the matrix and the number of lines it takes -/
def readDashList {F : Type} (φ : Num F) : List Str → Except YErr (Val F × Nat)
  | [] => .error .unbound
  | l :: ls =>
    let dash := (l :: ls).takeWhile isDash
    let first := firstElems l
    match first.mapM φ.int with
    | some _ =>
      if first = [] then .ok (.ints (dash.map (fun _ => [])), dash.length)
      else
        match fill φ.int first.length dash with
        | none => .error .value
        | some m => .ok (.ints m, dash.length)
    | none =>
      match first.mapM φ.flt with
      | none => .error .conv
      | some _ =>
        match fill φ.flt first.length dash with
        | none => .error .value
        | some m => .ok (.floats m, dash.length)

/-- the value of a line `key: value` (79-85) -/
def scalar {F : Type} (φ : Num F) (val : Str) : Val F :=
  match φ.int (strip val) with
  | some i => .int i
  | none =>
    match φ.flt (strip val) with
    | some x => .float x
    | none => .str (strip val)

/-- the loop over the lines (65-87) -/
def loop {F : Type} (φ : Num F) : Nat → List (Str × Val F) → List Str → Except YErr (List (Str × Val F))
  | 0, d, _ => .ok d
  | _, d, [] => .ok d
  | f + 1, d, l :: ls =>
    let l := cleanComment l
    if l = [] then loop φ f d ls
    else
      match splitOn ':' l with
      | [key, val] =>
        if strip val = [] then
          match readDashList φ ls with
          | .error e => .error e
          | .ok (v, n) => loop φ f (setKey d key v) (ls.drop n)
        else loop φ f (setKey d key (scalar φ val)) ls
      | _ => .error .index

/-- `yaml_read` (6-88) -/
def read {F : Type} (φ : Num F) (ls : List Str) : Except YErr (List (Str × Val F)) := loop φ ls.length [] ls

end Verif.Yaml
