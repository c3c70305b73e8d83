import Verif.Py.Str
/-!
# `FASTInputFileBase` as a dictionary — `/repo/weio/fast_input_file.py:150-294`

`self.data` is a list of entries (python dictionaries).  The wrapper
`FASTInputFile` (37-144) only delegates `__getitem__`, `__setitem__`, `keys`,
`__iter__`, `__next__` to such an object.
Simplification: of a table entry only `tabType` is kept (`tabDimVar`,
`tabColumnNames`, `tabUnits` are not used by these methods); `_IComment` is the
base-class value `[]` (line 292-294).
-/
namespace Verif.FastDict
open Verif.Py

/-- one element of `self.data`; `V` is the type of python values. -/
structure Entry (V : Type) where
  label : Str
  value : V
  isComment : Bool
  descr : Str
  tabType : Nat
deriving Repr, DecidableEq

/-- `self.data` -/
abbrev Data (V : Type) := List (Entry V)

/-- `d['label'].lower()==label.lower()` (lines 207, 218). -/
def sameLabel (label : Str) (d : Entry V) : Bool := lower d.label == lower label

/-- `getIDSafe` (214-220): `none` stands for `-1`. -/
def getIDSafe (data : Data V) (label : Str) : Option Nat := data.findIdx? (sameLabel label)

/-- `getIDs` (202-212).  The test `len(I)<0` of line 209 is never true, so no
exception is ever raised. -/
def getIDs (data : Data V) (label : Str) : List Nat :=
  (List.range data.length).filter (fun i => match data[i]? with
    | some d => sameLabel label d
    | none => false)

/-- `__getitem__` (241-243) through `getID` (195-200): `none` is `KeyError`. -/
def getitem (data : Data V) (key : Str) : Option V :=
  match getIDSafe data key with
  | none => none
  | some i => data[i]?.map Entry.value

/-- `__setitem__` (236-239): loop over `getIDs`, setting `value`. -/
def setitem (data : Data V) (key : Str) (item : V) : Data V :=
  (getIDs data key).foldl (fun data i => data.modify i (fun d => { d with value := item })) data

/-- `getDict()` (990-991); the initial value `None` is a parameter. -/
def getDict (none_ : V) : Entry V := ⟨[], none_, false, [], 0⟩

/-- `addKeyVal` (249-260). -/
def addKeyVal (none_ : V) (data : Data V) (key : Str) (val : V) (descr : Option Str) : Data V :=
  let upd (d : Entry V) : Entry V :=
    let d := { d with label := key, value := val }
    match descr with
    | some s => { d with descr := s }
    | none => d
  match getIDSafe data key with
  | none => data ++ [upd (getDict none_)]
  | some i => data.modify i upd

/-- `addComment` (265-269); `comment` is the value stored. -/
def addComment (none_ : V) (data : Data V) (comment : V) : Data V :=
  data ++ [{ getDict none_ with isComment := true, value := comment }]

/-- `addTable` (271-279). -/
def addTable (none_ : V) (data : Data V) (label : Str) (tab : V) (tabType : Nat) : Data V :=
  data ++ [{ getDict none_ with label := label, value := tab, tabType := tabType }]

/-- `keys` (191-193). -/
def keys (data : Data V) : List Str := (data.filter (fun d => !d.isComment)).map Entry.label

/-! ### iteration (222-233) -/

/-- iterator state: `self.iCurrent`, `self.iMax`. -/
structure Iter where
  iCurrent : Int
  iMax : Int
deriving Repr, DecidableEq

/-- `__iter__` (223-226) -/
def iter (data : Data V) : Iter := ⟨-1, (data.length : Int) - 1⟩

inductive Next (V : Type) where
  | stop                                  -- StopIteration
  | indexError                            -- IndexError from `self.data[self.iCurrent]`
  | item (d : Entry V)
deriving Repr, DecidableEq

/-- Python indexing `data[i]` with an `Int` (negative counts from the end). -/
def pyIndex (data : List α) (i : Int) : Option α :=
  if 0 ≤ i then data[i.toNat]?
  else if 0 ≤ i + data.length then data[(i + data.length).toNat]?
  else none

/-- `__next__` (228-233) -/
def next (data : Data V) (it : Iter) : Iter × Next V :=
  if it.iCurrent > it.iMax then (it, .stop)
  else
    let it := { it with iCurrent := it.iCurrent + 1 }
    match pyIndex data it.iCurrent with
    | some d => (it, .item d)
    | none => (it, .indexError)

/-- A `for` loop over the object: the entries visited and how the loop ended
(`none`: normally by `StopIteration`; `some ()`: by `IndexError`).  The fuel
bounds the number of `__next__` calls. -/
def forLoop (data : Data V) : Nat → Iter → Option (List (Entry V) × Bool)
  | 0, _ => none
  | n + 1, it =>
    match next data it with
    | (_, .stop) => some ([], true)
    | (_, .indexError) => some ([], false)
    | (it, .item d) => (forLoop data n it).map (fun r => (d :: r.1, r.2))

/-! ### histories -/

inductive Op (V : Type) where
  | set (key : Str) (val : V)
  | addKeyVal (key : Str) (val : V) (descr : Option Str)
  | addComment (c : V)
  | addTable (label : Str) (tab : V) (tabType : Nat)

def step (none_ : V) (data : Data V) : Op V → Data V
  | .set k v => setitem data k v
  | .addKeyVal k v d => addKeyVal none_ data k v d
  | .addComment c => addComment none_ data c
  | .addTable l t n => addTable none_ data l t n

def run (none_ : V) (data : Data V) (ops : List (Op V)) : Data V := ops.foldl (step none_) data

end Verif.FastDict
