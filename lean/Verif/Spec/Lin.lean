import Mathlib.Data.List.Forall2
import Verif.Model.Lin
/-!
# What an OpenFAST linearization file says

Written from the layout of the files, not from the reader: a header of at most 30 lines, the line
`Jacobians included in this file?`, then operating points, matrices and other lines, in any order.
-/
namespace Verif.Lin
open Verif.Py Verif.FastLine

/-- the word after `key` in the header: of its first line with `key`; `none` when no line has it -/
def Field (hs : List Str) (key : Str) : Option Str → Prop
  | none => ∀ l ∈ hs, ¬ key <:+: l
  | some w => ∃ a p q b r, hs = a ++ (p ++ key ++ q) :: b ∧ (∀ l ∈ a, ¬ key <:+: l) ∧
      (∀ c ∈ p, isWs c = true) ∧ ¬ key <:+: q ∧ words q = w :: r

/-- the header says everything that is needed: five counts, whether there are Jacobians, and — or not —
the azimuth, the rotor speed and the wind speed -/
structure Header (hs : List Str) (nx nu ny : Nat) (az rot wind : Option Str) : Prop where
  x : Field hs "Number of continuous states:".toList (some (Nat.toDigits 10 nx))
  discrete : ∃ n, Field hs "Number of discrete states:".toList (some (Nat.toDigits 10 n))
  constr : ∃ n, Field hs "Number of constraint states:".toList (some (Nat.toDigits 10 n))
  u : Field hs "Number of inputs:".toList (some (Nat.toDigits 10 nu))
  y : Field hs "Number of outputs:".toList (some (Nat.toDigits 10 ny))
  jac : ∃ w, Field hs "Jacobians included in this file?".toList w
  azimuth : Field hs "Azimuth:".toList az
  rotor : Field hs "Rotor Speed:".toList rot
  wind : Field hs "Wind Speed:".toList wind

/-- the four lists of operating points -/
inductive OpKind where
  | x | xdot | u | y
deriving DecidableEq

/-- the line above a list of operating points -/
def OpKind.title : OpKind → Str
  | .x => "Order of continuous states:".toList
  | .xdot => "Order of continuous state derivatives:".toList
  | .u => "Order of inputs:".toList
  | .y => "Order of outputs:".toList

/-- the six matrices -/
inductive MatKind where
  | A | B | C | D | dUdu | dUdy
deriving DecidableEq

/-- how the line above a matrix starts -/
def MatKind.title : MatKind → Str
  | .A => "A:".toList
  | .B => "B:".toList
  | .C => "C:".toList
  | .D => "D:".toList
  | .dUdu => "dUdu:".toList
  | .dUdy => "dUdy:".toList

/-- the number of points of a list -/
def OpKind.size (nx nu ny : Nat) : OpKind → Nat
  | .x => nx
  | .xdot => nx
  | .u => nu
  | .y => ny

/-- the number of rows of a matrix -/
def MatKind.size (nx nu ny : Nat) : MatKind → Nat
  | .A => nx
  | .B => nx
  | .C => ny
  | .D => ny
  | .dUdu => nu
  | .dUdy => nu

/-- the words of the line of an operating point: its number, its value — or three values separated by
commas, of which the first is kept —, its frame, its derivative order if there is such a column, its
description -/
def OpSays {F : Type} (parse : Str → Option F) (deriv : Prop) (l : Str) (r : OpRow F) : Prop :=
  ∃ idx v mid tail ws,
    words l = idx :: mid ++ r.frame :: tail ++ ws ∧
    (mid = [v] ∧ ',' ∉ v ∨ ∃ b c, mid = [v ++ [','], b, c]) ∧
    parse v = some r.value ∧
    (deriv → tail = [showInt r.order]) ∧ (¬ deriv → tail = [] ∧ r.order = -1) ∧
    r.descr = joinWith [' '] ws

/-- a line of numbers -/
def RowSays {F : Type} (parse : Str → Option F) (l : Str) (row : List F) : Prop :=
  List.Forall₂ (fun w x => parse w = some x) (words l) row

/-- a part of the file after its header -/
inductive Block (F : Type) where
  /-- a line outside of all lists and matrices -/
  | other (l : Str)
  /-- a list of operating points: title, two lines of column titles, one line per point -/
  | op (k : OpKind) (title cols dash : Str) (ls : List Str) (rows : List (OpRow F))
  /-- a matrix: title, one line per row -/
  | mat (k : MatKind) (title : Str) (ls : List Str) (rows : List (List F))
  /-- the mass matrix of ElastoDyn -/
  | mass (title : Str) (names : List Str) (ls : List Str) (rows : List (List F))

/-- the texts that start something -/
def starts : List Str :=
  ["Order of continuous states:", "Order of continuous state derivatives:", "Order of inputs", "Order of outputs",
   "A:", "B:", "C:", "D:", "dUdu:", "dUdy:", "ED M:"].map String.toList

/-- the lines of a part -/
def Block.lines {F : Type} : Block F → List Str
  | .other l => [l]
  | .op _ t c d ls _ => t :: c :: d :: ls
  | .mat _ t ls _ => t :: ls
  | .mass t _ ls _ => t :: ls

/-- a title of a matrix: its key, then a text without colon and without the words `Order of` -/
def TitleOf (key title rest : Str) : Prop :=
  strip title = key ++ rest ∧ ':' ∉ rest ∧ ¬ "Order of".toList <:+: rest

/-- a part is well formed, for the numbers of states, inputs and outputs of the header -/
def Block.Ok {F : Type} (parse : Str → Option F) (nx nu ny : Nat) : Block F → Prop
  | .other l => ∀ k ∈ starts, ¬ k <:+: strip l
  | .op k t c _ ls rows => strip t = k.title ∧ List.Forall₂ (OpSays parse ("Derivative Order".toList <:+: strip c)) ls rows ∧
      rows.length = k.size nx nu ny ∧ rows ≠ []
  | .mat k t ls rows => (∃ r, TitleOf k.title t r) ∧ List.Forall₂ (RowSays parse) ls rows ∧
      rows.length = k.size nx nu ny ∧ ∃ w, ∀ r ∈ rows, r.length = w
  | .mass t names ls rows => (∃ r, TitleOf "ED M:".toList t r ∧ words r = names) ∧
      List.Forall₂ (RowSays parse) ls rows ∧ rows.length = 24 ∧ ∃ w, ∀ r ∈ rows, r.length = w

/-- the last list of operating points of a kind -/
def lastOp {F : Type} (k : OpKind) (bs : List (Block F)) : Option (List (OpRow F)) :=
  (bs.filterMap (fun b => match b with
    | .op k' _ _ _ _ rows => if k' = k then some rows else none
    | _ => none)).getLast?

/-- the last matrix of a kind -/
def lastMat {F : Type} (k : MatKind) (bs : List (Block F)) : Option (List (List F)) :=
  (bs.filterMap (fun b => match b with
    | .mat k' _ _ rows => if k' = k then some rows else none
    | _ => none)).getLast?

/-- the last mass matrix and the names of its rows -/
def lastMass {F : Type} (bs : List (Block F)) : Option (List Str × List (List F)) :=
  (bs.filterMap (fun b => match b with
    | .mass _ names _ rows => some (names, rows)
    | _ => none)).getLast?

end Verif.Lin
