import Verif.Model.HtcEdit
/-!
# Finding contents of HAWC2 files

`/repo/weio/wetb/hawc2/htc_contents.py:45-56, 101-123, 322-326`: `section['a.b']`, `section.get`, and
`section(field=value)`.
Simplifications: values are of any type `V`, as in `Verif.Model.HtcEdit`; a section called `values` is not considered;
the whole number that `int` gives for a text is a parameter, and it is not negative.
-/
namespace Verif.HtcQuery
open Verif.Py Verif.HtcEdit

/-- `val[k]` for the rest of the keys (htc_contents.py:51-53): a section looks the key up; a line raises
in its own message, which adds one to the text (htc_contents.py:322-326) -/
def walk : Item V → List Str → Except Err (Item V)
  | x, [] => .ok x
  | x, k :: ks => match kidsOf x with
    | none => .error .type
    | some d => match look k d with
      | none => .error .key
      | some y => walk y ks

/-- the keys of a text (htc_contents.py:47-49, 54) -/
def keysOf (key : Str) : List Str := splitOn '/' (replaceChar '.' ['/'] key)

/-- `section[key]` for a text (htc_contents.py:45-54) -/
def getItem (d : Kids V) (key : Str) : Except Err (Item V) :=
  match keysOf key with
  | [] => .error .key          -- unreachable
  | k :: ks => match look k d with
    | none => .error .key
    | some x => walk x ks

/-- `section.get(key, default)` (htc_contents.py:106-110): only KeyError is caught -/
def get (d : Kids V) (key : Str) (dflt : A) (f : Item V → A) : Except Err A :=
  match getItem d key with
  | .ok x => .ok (f x)
  | .error .key => .ok dflt
  | .error e => .error e

/-- `all([p(k, v) for k, v in kwargs.items()])`: all are computed -/
def allE (p : α → Except Err Bool) : List α → Except Err Bool
  | [] => .ok true
  | a :: r => match p a with
    | .error e => .error e
    | .ok b => match allE p r with
      | .error e => .error e
      | .ok c => .ok (b && c)

/-- `s[int(k[1:])] == v` (htc_contents.py:121); the number of a text that is none is a ValueError -/
def byPosition [DecidableEq V] (int : Str → Option Nat) (x : Item V) (q : Str × V) : Except Err Bool :=
  match int (q.1.drop 1) with
  | none => .error .value
  | some i => hasValue i q.2 x

/-- the condition of `__call__` (htc_contents.py:119-122) -/
def picks [DecidableEq V] (int : Str → Option Nat) (name : Str) (kw : List (Str × V)) (x : Item V) : Except Err Bool :=
  if nameOf x ≠ name then .ok false
  else match allE (fun q => hasField q.1 q.2 x) kw with
    | .error e => .error e
    | .ok true => .ok true
    | .ok false => if kw.all fun q => q.1.head? = some 'v' then allE (byPosition int x) kw else .ok false

/-- exceptions of `__call__`: those of the condition, and AssertionError (htc_contents.py:123) -/
inductive CallErr where
  | raised (e : Err)
  | assertion
deriving DecidableEq, Repr

/-- `contents(k=v, …)` for contents of this name in a section with this dictionary (htc_contents.py:112-124) -/
def call [DecidableEq V] (int : Str → Option Nat) (d : Kids V) (name : Str) (kw : List (Str × V)) : Except CallErr (Item V) :=
  match filterE (picks int name kw) (items d) with
  | .error e => .error (.raised e)
  | .ok [x] => .ok x
  | .ok _ => .error .assertion

end Verif.HtcQuery
