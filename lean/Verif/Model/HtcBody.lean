import Verif.Py.Str
import Mathlib.Algebra.Order.Floor.Ring
import Mathlib.Data.Rat.Floor
import Mathlib.Data.List.Sort

/-!
# The bodies of a HAWC2 htc file

Models `bodyDict`, `bodyNames`, `bodyByName`, `bodyC2`, `setBodyC2` and the `c2` tables of `_toDataFrame` of
`weio/hawc2_htc_file.py`, on the contents of sections as `weio/wetb/hawc2/htc_contents.py` keeps them: keys in order,
each with the values of its line.

Simplifications: numbers are rational; values of section lines that are texts are refused (numpy would accept the
texts `nan` and `inf`); equal numbers of sections keep their order in `np.argsort`; the tables of structural files
are not modelled.
-/
namespace Verif.HtcBody
open Verif.Py

/-- the exceptions -/
inductive Err where
  | exc | key | index | value | type | notImpl
deriving DecidableEq, Repr

/-- a value of a line, as `fmt_value` gives it (htc_contents.py:30-36) -/
inductive Val where
  | num (q : ℚ)
  | str (s : Str)
deriving DecidableEq, Repr

/-- a `c2_def` section: keys and values of its lines, in order -/
abbrev Sect := List (Str × List Val)

/-- a body: its lines, and its `c2_def` section if it has one -/
structure Body where
  lines : Sect
  c2 : Option Sect
deriving DecidableEq, Repr

/-- `[k for k in bdy.c2_def.keys() if k.startswith('sec')]` (68, 78) -/
def secKeys (s : Sect) : List Str := (s.map Prod.fst).filter fun k => startsWith k "sec".toList

/-- `astype(float)` (69) of one value -/
def floatOf : Val → Except Err ℚ
  | .num q => .ok q
  | .str _ => .error .value

/-- `astype(float)` (69) -/
def floats : List Val → Except Err (List ℚ)
  | [] => .ok []
  | v :: l =>
    match floatOf v with
    | .error e => .error e
    | .ok x =>
      match floats l with
      | .error e => .error e
      | .ok r => .ok (x :: r)

/-- `reshape((-1,5))` (69): the rows -/
def fives {α : Type} : List α → List (List α)
  | a :: b :: c :: d :: e :: l => [a, b, c, d, e] :: fives l
  | _ => []

/-- `val[np.argsort(val[:,0]),:]` (70) -/
def sortRows (l : List (List ℚ)) : List (List ℚ) := l.insertionSort fun a b => a.headD 0 ≤ b.headD 0

/-- `bodyC2(bdy)` (62-71) -/
def bodyC2 (b : Body) : Except Err (List (List ℚ)) :=
  match b.c2 with
  | none => .error .exc
  | some s =>
    match s.lookup "nsec".toList with
    | none => .error .exc
    | some [] => .error .exc
    | some (_ :: _) =>
      let rows := (secKeys s).map fun k => (s.lookup k).getD []
      -- rows of different lengths are no array
      if rows.any fun r => r.length ≠ (rows.headD []).length then .error .value
      else
        match floats rows.flatten with
        | .error e => .error e
        | .ok v => if v.length % 5 ≠ 0 then .error .value else .ok (sortRows (fives v))

/-- `bdy.c2_def.nsec = n`, `.values = v`: the values of a line are replaced (htc_contents.py:71-88) -/
def setVals (s : Sect) (k : Str) (v : List Val) : Sect := s.map fun p => if p.1 = k then (p.1, v) else p

/-- `int(x)` of a number -/
def trunc (x : ℚ) : ℚ := if x < 0 then -(⌊-x⌋ : ℚ) else ⌊x⌋

/-- the loop over the sections (89-91) -/
def assign : Sect → List Str → List (List ℚ) → Sect × Except Err Unit
  | s, [], _ => (s, .ok ())
  | s, _ :: _, [] => (s, .error .index)
  | s, k :: ks, row :: rows =>
    match row, s.lookup k with
    | [], _ => (s, .error .index)
    | _ :: _, none => (s, .error .key)
    | _ :: _, some [] => (s, .error .index)
    | x :: xs, some (_ :: _) => assign (setVals s k (.num (trunc x) :: xs.map .num)) ks rows

/-- `setBodyC2(bdy, val)` (73-92) on the `c2_def` section: the section afterwards, and the outcome -/
def setBodyC2 (s : Sect) (val : List (List ℚ)) : Sect × Except Err Unit :=
  match s.lookup "nsec".toList with
  | none => (s, .error .key)
  | some [] => (s, .error .index)
  | some (n :: _) =>
    let ks := secKeys s
    let s1 := setVals s "nsec".toList [.num val.length]
    if n = .num val.length then assign s1 ks val
    else
      match n with
      | .str _ => (s1, .error .type)
      | .num n =>
        if (val.length : ℚ) < n then assign (s1.filter fun p => p.1 ∉ ks.drop val.length) (ks.take val.length) val
        else (s1, .error .notImpl)

/-- `struct[k].name[0]` (51): the first value of the line `name` -/
def nameOf (b : Body) : Except Err Val :=
  match b.lines.lookup "name".toList with
  | none => .error .key
  | some [] => .error .index
  | some (v :: _) => .ok v

/-- setting an entry of a dictionary -/
def setKey {κ β : Type} [DecidableEq κ] (d : List (κ × β)) (k : κ) (v : β) : List (κ × β) :=
  if k ∈ d.map Prod.fst then d.map fun p => if p.1 = k then (p.1, v) else p else d ++ [(k, v)]

/-- the loop of `bodyDict` (50-52) -/
def dictLoop : List (Str × Body) → List (Val × Body) → Except Err (List (Val × Body))
  | [], d => .ok d
  | (k, b) :: l, d =>
    if startsWith k "main_body".toList then
      match nameOf b with
      | .error e => .error e
      | .ok n => dictLoop l (setKey d n b)
    else dictLoop l d

/-- `bodyDict` (44-53) of the entries of `new_htc_structure` -/
def bodyDict (st : List (Str × Body)) : Except Err (List (Val × Body)) := dictLoop st []

/-- `bodyByName(bodyname)` (55-60) -/
def bodyByName (st : List (Str × Body)) (n : Val) : Except Err Body :=
  match bodyDict st with
  | .error e => .error e
  | .ok d =>
    match d.lookup n with
    | none => .error .exc
    | some b => .ok b

/-- `val[:,[3,1,2,4]]` (110) of a row -/
def zxyt (r : List ℚ) : List ℚ := [r.getD 3 0, r.getD 1 0, r.getD 2 0, r.getD 4 0]

/-- the `c2` tables of `_toDataFrame` (95-111): bodies without sections are left out -/
def tableLoop : List (Str × Body) → List (Str × List (List ℚ)) → Except Err (List (Str × List (List ℚ)))
  | [], d => .ok d
  | (k, b) :: l, d =>
    if startsWith k "main_body".toList then
      match bodyC2 b with
      | .error _ => tableLoop l d
      | .ok v =>
        match nameOf b with
        | .error e => .error e
        | .ok (.num _) => .error .type
        | .ok (.str n) => tableLoop l (setKey d (n ++ "_c2".toList) (v.map zxyt))
    else tableLoop l d

/-- the `c2` tables of `_toDataFrame` (95-111) -/
def tables (st : List (Str × Body)) : Except Err (List (Str × List (List ℚ))) := tableLoop st []

end Verif.HtcBody
