import Mathlib.Data.Rat.Defs
import Mathlib.Algebra.Order.Field.Rat
import Verif.Py.Str
/-!
# SubDyn summary files — `/repo/weio/fast_summary_file.py:97-261`

`readSubDynSum(self)` defines the methods as closures and puts them on the **class**
(:256-259): after each read, `getModes`, `toJSON` and `toDataFrame` of all objects refer to the
object read last where they say `self`.  The state therefore is a set of objects together with the
object read last.

Simplifications: the file is given by the values found in it (`yaml_read`, `mini_yaml.py`, is not
modelled); numbers are exact; NaN is `none`; node and degree-of-freedom numbers are natural
numbers; the order of equal positions in `np.argsort` is a parameter.
-/
namespace Verif.Summary
open Verif.Py

/-- exceptions -/
inductive Err where
  | index        -- IndexError: a node or degree of freedom that does not exist
  | value        -- ValueError: shapes that do not fit
  | attr         -- AttributeError / Exception: no summary file was read
deriving DecidableEq, Repr

/-- one row of `Elements`: number, two nodes, type (column 5) and area (column 7) -/
structure Elem where
  id : Int
  n1 : Int
  n2 : Int
  kind : Int
  area : ℚ
deriving DecidableEq, Repr

/-- the contents of a summary object after reading (:101-115): degrees of freedom start at 0.
`dofs` are columns 1 (node, from 1) and 3 (direction, from 1) of `DOF2Nodes`; `nCB` and `nR` the
numbers of columns of `PhiM` and `PhiR`. -/
structure Data where
  dofs : List (Nat × Nat)
  dofB : List Nat
  dofL : List Nat
  dofF : List Nat
  nCB : Nat
  phiM : List (List ℚ)
  nR : Nat
  phiR : List (List ℚ)
  nodes : List (ℚ × ℚ × ℚ)
  elems : List Elem
  freq : List ℚ
deriving DecidableEq, Repr

/-- the `d`-th coordinate -/
def coord (d : Nat) (p : ℚ × ℚ × ℚ) : ℚ := if d = 0 then p.1 else if d = 1 then p.2.1 else p.2.2

/-- `np.max(l)`; none for an empty array (ValueError) -/
def maxL : List ℚ → Option ℚ
  | [] => none
  | x :: l => some (l.foldl max x)

/-- `np.min(l)` -/
def minL : List ℚ → Option ℚ
  | [] => none
  | x :: l => some (l.foldl min x)

/-! ## `NodesDisp` (:118-151) -/

/-- insertion into an increasing list without repetition -/
def insertU (n : Nat) : List Nat → List Nat
  | [] => [n]
  | m :: l => if n < m then n :: m :: l else if n = m then m :: l else m :: insertU n l

/-- `np.sort(np.unique(...))` (:122) -/
def sortU (l : List Nat) : List Nat := l.foldr insertU []

/-- displacements by node index, direction, shape; positions by node index; none is NaN -/
structure Arr where
  disp : Nat → Nat → Nat → Option ℚ
  pos : Nat → Option (ℚ × ℚ × ℚ)

/-- `np.empty(...)` filled with NaN (:124-125) -/
def Arr.empty : Arr := ⟨fun _ _ _ => none, fun _ => none⟩

/-- one degree of freedom (:129-138): `i` its position in the list, `iDOF` its number -/
def dofStep (D : Data) (inodes : List Nat) (U : List (List ℚ)) (a : Arr) (i iDOF : Nat) : Except Err Arr :=
  match D.dofs[iDOF]? with
  | none => .error .index
  | some (node, dir) =>
    if dir ≤ 3 then
      match D.nodes[node - 1]?, U[i]? with
      | some p, some row =>
        let ii := inodes.idxOf node
        .ok ⟨fun a' k s => if a' = ii ∧ k + 1 = dir then row[s]? else a.disp a' k s,
          fun a' => if a' = ii then some p else a.pos a'⟩
      | _, _ => .error .index
    else .ok a

/-- the loop over the degrees of freedom (:128) -/
def dofLoop (D : Data) (inodes : List Nat) (U : List (List ℚ)) : Nat → List Nat → Arr → Except Err Arr
  | _, [], a => .ok a
  | i, iDOF :: l, a =>
    match dofStep D inodes U a i iDOF with
    | .error e => .error e
    | .ok a => dofLoop D inodes U (i + 1) l a

/-- the values of one shape: all nodes and directions that are not NaN -/
def values (n : Nat) (a : Arr) (s : Nat) : List ℚ :=
  (List.range n).flatMap fun ii => (List.range 3).filterMap fun k => a.disp ii k s

/-- `np.nanmax(np.abs(...))` (:142) -/
def largest (n : Nat) (a : Arr) (s : Nat) : Option ℚ := maxL ((values n a s).map (|·|))

/-- the factor of one shape (:143-144) -/
def factor (n : Nat) (a : Arr) (maxDisp : ℚ) (s : Nat) : ℚ :=
  match largest n a s with
  | none => 1
  | some m => if m > 1 / 100000 then maxDisp / m else 1

/-- scaling (:140-144) -/
def scaled (n : Nat) (a : Arr) (maxDisp : Option ℚ) : Arr :=
  match maxDisp with
  | none => a
  | some md => { a with disp := fun ii k s => (a.disp ii k s).map (· * factor n a md s) }

/-- what `NodesDisp` returns: node numbers, positions and displacements, one entry per node -/
structure Shapes where
  inodes : List Nat
  pos : List (Option (ℚ × ℚ × ℚ))
  disp : List (List (List (Option ℚ)))
deriving DecidableEq, Repr

/-- order of `np.argsort` on numbers that may be NaN -/
structure Env where
  argsort : List (Option ℚ) → List Nat

/-- the order of the nodes (:146-147) -/
def order (E : Env) (n : Nat) (a : Arr) : Option Nat → List Nat
  | none => List.range n
  | some d => E.argsort ((List.range n).map fun ii => (a.pos ii).map (coord d))

/-- `NodesDisp(IDOF, UDOF, maxDisp, sortDim)` (:118-151); `ns` is the number of columns of `UDOF` -/
def nodesDisp (E : Env) (D : Data) (idof : List Nat) (ns : Nat) (U : List (List ℚ)) (maxDisp : Option ℚ) (sortDim : Option Nat) :
    Except Err Shapes :=
  if idof.any (fun i => D.dofs.length ≤ i) then .error .index
  else
    let inodes := sortU (idof.map fun i => (D.dofs.getD i (0, 0)).1)
    match dofLoop D inodes U 0 idof Arr.empty with
    | .error e => .error e
    | .ok a =>
      let a := scaled inodes.length a maxDisp
      let I := order E inodes.length a sortDim
      .ok ⟨I.map fun ii => inodes.getD ii 0, I.map a.pos,
        I.map fun ii => (List.range 3).map fun k => (List.range ns).map fun s => a.disp ii k s⟩

/-! ## `getModes`, `toJSON`, `toDataFrame` -/

/-- the size of the structure: `np.max([dx,dy,dz])*0.1` (:157-160) -/
def defaultDisp (D : Data) : Except Err ℚ :=
  match maxL (D.nodes.map (coord 0)), minL (D.nodes.map (coord 0)), maxL (D.nodes.map (coord 1)),
    minL (D.nodes.map (coord 1)), maxL (D.nodes.map (coord 2)), minL (D.nodes.map (coord 2)) with
  | some x1, some x0, some y1, some y0, some z1, some z0 => .ok (max (max (x1 - x0) (y1 - y0)) (z1 - z0) * (1 / 10))
  | _, _, _, _, _, _ => .error .value

/-- `np.zeros((n,m))` -/
def zeros (n m : Nat) : List (List ℚ) := List.replicate n (List.replicate m 0)

/-- `np.eye(n)` -/
def eye (n : Nat) : List (List ℚ) := (List.range n).map fun (i : Nat) => (List.range n).map fun j => if i = j then 1 else 0

/-- Guyan and Craig-Bampton shapes -/
structure Modes where
  gy : Shapes
  cb : Shapes
deriving DecidableEq, Repr

/-- `getModes` after the choice of `maxDisp` (:162-176); `np.vstack` wants equal numbers of columns -/
def modesOf (E : Env) (D : Data) (maxDisp : ℚ) (sortDim : Option Nat) : Except Err Modes :=
  let dofK := D.dofB ++ D.dofL ++ D.dofF
  let phiCB := zeros D.dofB.length D.nCB ++ D.phiM ++ zeros D.dofF.length D.nCB
  match nodesDisp E D dofK D.nCB phiCB (some maxDisp) sortDim with
  | .error e => .error e
  | .ok cb =>
    if D.nR ≠ D.dofB.length then .error .value
    else
      let phiG := eye D.dofB.length ++ D.phiR ++ zeros D.dofF.length D.nR
      match nodesDisp E D dofK D.nR phiG (some maxDisp) sortDim with
      | .error e => .error e
      | .ok gy => .ok ⟨gy, cb⟩

/-- `getModes(data, maxDisp, sortDim)` (:153-176) with the closure variable `self`: the default
size is that of `self`, not of `data` -/
def getModes (E : Env) (self data : Data) (maxDisp : Option ℚ) (sortDim : Option Nat) : Except Err Modes :=
  match maxDisp with
  | some md => modesOf E data md sortDim
  | none =>
    match defaultDisp self with
    | .error e => .error e
    | .ok md => modesOf E data md sortDim

/-- `Elements[:,0]-=1` and so on (:190-192) -/
def lower1 (e : Elem) : Elem := { e with id := e.id - 1, n1 := e.n1 - 1, n2 := e.n2 - 1 }

/-- what `toJSON` returns (:195-213).  Simplification: of the frequencies only their number of
shapes, names of the modes left out; the diameter is a function of the area. -/
structure Json where
  connectivity : List (Int × Int)
  nodes : List (ℚ × ℚ × ℚ)
  props : List (Int × ℚ)
  modes : Modes
  freq : List ℚ
  ground : ℚ
deriving DecidableEq, Repr

/-- `subDynToJson(data)` (:179-222) with the closure variable `self`: nodes and elements are those
of `self`, whose element table is changed.  Returns the new `self`. -/
def toJson (E : Env) (self data : Data) : Data × Except Err Json :=
  match getModes E self data none (some 2) with
  | .error e => (self, .error e)
  | .ok m =>
    let self' := { self with elems := self.elems.map lower1 }
    match minL (data.nodes.map (coord 2)) with
    | none => (self', .error .value)
    | some z =>
      if data.freq.length < data.nCB then (self', .error .index)
      else (self', .ok ⟨self'.elems.map fun e => (e.n1, e.n2), self.nodes, self'.elems.map fun e => (e.kind, e.area), m,
        data.freq.take data.nCB, z⟩)

/-! ## Several objects -/

/-- all objects that were read, and the one read last -/
structure World where
  objs : Nat → Option Data
  last : Option Nat

/-- nothing read yet -/
def World.init : World := ⟨fun _ => none, none⟩

/-- calls on object `o` -/
inductive Op where
  | read (o : Nat) (f : Data)            -- `o.read(file)`
  | modes (o : Nat) (maxDisp : Option ℚ)
  | json (o : Nat)

/-- an object is replaced -/
def World.set (w : World) (o : Nat) (d : Data) : World := { w with objs := fun o' => if o' = o then some d else w.objs o' }

/-- `getModes` of an object that was read -/
def World.getModes (E : Env) (w : World) (o : Nat) (maxDisp : Option ℚ) (sortDim : Option Nat) : Except Err Modes :=
  match w.last with
  | none => .error .attr
  | some l =>
    match w.objs l, w.objs o with
    | some self, some data => Summary.getModes E self data maxDisp sortDim
    | _, _ => .error .attr

/-- `toJSON` of an object: the answer and the objects afterwards.  When the object is the one read
last, `self` and `data` are the same object. -/
def World.toJson (E : Env) (w : World) (o : Nat) : World × Except Err Json :=
  match w.last with
  | none => (w, .error .attr)
  | some l =>
    match w.objs l, w.objs o with
    | some self, some data => let r := Summary.toJson E self data; (w.set l r.1, r.2)
    | _, _ => (w, .error .attr)

/-- one call -/
def World.step (E : Env) (w : World) : Op → World
  | .read o f => { (w.set o f) with last := some o }
  | .modes _ _ => w
  | .json o => (w.toJson E o).1

/-- a history of calls -/
def World.run (E : Env) (ops : List Op) : World := ops.foldl (World.step E) World.init

end Verif.Summary
