import Verif.Py.Str
import Verif.Py.Dec
/-!
# Graph models — `/repo/weio/tools/graph.py`

`_divideElement` (402-452), `divideElements` (483-530), `addNode`/`addElement` (179-188),
the connectivity queries with their caches (219-258) and `connecticityHasChanged` (385-389).

Node positions are values of a type `P`; the interpolated position of the `i`-th of `n` points is
`interp i n p q` (floating point in the code). Simplifications: the data of nodes belong to `P`;
a node of an element is looked up by its ID (the code keeps references to the nodes that were
found by ID when the element was added); the lookup of nodal properties is not modelled.
-/
namespace Verif.Graph
open Verif.Py

/-- a node (graph.py:42-48) -/
structure Node (P : Type) where
  id : Int
  pos : P
deriving DecidableEq, Repr

/-- the property IDs of an element: none, a numpy array, or a list (graph.py:105, 443-447) -/
inductive Props where
  | none
  | arr (ids : List Int)
  | lst (ids : List Int)
deriving DecidableEq, Repr

/-- an element (graph.py:99-122) -/
structure Elem (D : Type) where
  id : Int
  nodeIDs : List Int
  props : Props
  data : D
deriving DecidableEq, Repr

/-- a graph; `frozen` when modes or motions are present -/
structure Graph (P D : Type) where
  nodes : List (Node P)
  elems : List (Elem D)
  frozen : Bool := false
deriving DecidableEq, Repr

inductive Err where
  | frozen            -- modes or motions present (graph.py:404-407)
  | value             -- `np.max` of an empty list, `nPerElement <= 0`
  | key               -- node not found
  | unbound           -- `propset` before assignment (graph.py:448, propIDs None)
  | type              -- `all(False)` for a list (graph.py:441)
  | notImplemented    -- different properties at the ends (graph.py:446)
deriving DecidableEq, Repr

/-- `np.max` of a list of IDs -/
def maxId : List Int → Except Err Int
  | [] => .error .value
  | a :: l => .ok (l.foldl max a)

/-- `getNode` (graph.py:191-195) -/
def getNode (nodes : List (Node P)) (i : Int) : Except Err (Node P) :=
  match nodes.find? (fun n => n.id = i) with
  | some n => .ok n
  | none => .error .key

/-- the new nodes of an element (graph.py:417-434): IDs behind the largest one -/
def newNodes (interp : Nat → Nat → P → P → P) (n : Nat) (m : Int) (p q : P) : List (Node P) :=
  (List.range (n - 1)).map fun (i : Nat) => ⟨m + 1 + (i : Int), interp (i + 1) n p q⟩

/-- the properties of the new elements (graph.py:440-448) -/
def newProps : Props → Except Err Props
  | .none => .error .unbound
  | .lst _ => .error .type
  | .arr [] => .error .value
  | .arr (a :: l) => if (a :: l).all (· = a) then .ok (.arr (a :: l)) else .error .notImplemented

/-- the IDs of `subNodes` (graph.py:416-435) -/
def subIds (n : Nat) (a b m : Int) : List Int :=
  a :: ((List.range (n - 1)).map fun (i : Nat) => m + 1 + (i : Int)) ++ [b]

/-- pairs of consecutive IDs, `[subNodes[i].ID, subNodes[i+1].ID]` (graph.py:436-437, 449) -/
def pairs : List Int → List (List Int)
  | a :: b :: l => [a, b] :: pairs (b :: l)
  | _ => []

/-- the new elements (graph.py:438-450) -/
def newElems (e : Elem D) (n : Nat) (ids : List Int) (maxE : Int) : Except Err (List (Elem D)) :=
  if n ≤ 1 then .ok []
  else match newProps e.props with
    | .error x => .error x
    | .ok p => .ok (((pairs ids).drop 1).zipIdx.map fun x => ⟨maxE + 1 + (x.2 : Int), x.1, p, e.data⟩)

/-- `_divideElement` (graph.py:402-452): the nodes with the new ones, the element itself, which
becomes the first piece, and the new elements -/
def divideElem (interp : Nat → Nat → P → P → P) (n : Nat) (nodes : List (Node P)) (e : Elem D) (maxE : Int) :
    Except Err (List (Node P) × Elem D × List (Elem D)) :=
  match maxId (nodes.map Node.id) with
  | .error x => .error x
  | .ok m =>
    match e.nodeIDs with
    | [a, b] =>
      match getNode nodes a, getNode nodes b with
      | .ok na, .ok nb =>
        let ids := subIds n a b m
        match newElems e n ids maxE with
        | .error x => .error x
        | .ok es =>
          .ok (nodes ++ newNodes interp n m na.pos nb.pos, { e with nodeIDs := ids.take 2 }, es)
      | _, _ => .error .key
    | _ => .ok (nodes, e, [])

/-- the loop of `divideElements` (graph.py:505-514): each element with its new ones -/
def divideLoop (interp : Nat → Nat → P → P → P) (n : Nat) (excl : D → Bool) :
    List (Elem D) → List (Node P) → Int → Except Err (List (Node P) × List (Elem D × List (Elem D)))
  | [], nodes, _ => .ok (nodes, [])
  | e :: es, nodes, maxE =>
    if excl e.data then
      match divideLoop interp n excl es nodes maxE with
      | .error x => .error x
      | .ok (nodes, r) => .ok (nodes, (e, []) :: r)
    else
      match divideElem interp n nodes e maxE with
      | .error x => .error x
      | .ok (nodes, e', new) =>
        match divideLoop interp n excl es nodes (maxE + new.length) with
        | .error x => .error x
        | .ok (nodes, r) => .ok (nodes, (e', new) :: r)

inductive Method where
  | append
  | insert
deriving DecidableEq, Repr

/-- `divideElements` (graph.py:483-530) -/
def divideElements (interp : Nat → Nat → P → P → P) (n : Nat) (excl : D → Bool) (method : Method) (g : Graph P D) :
    Except Err (Graph P D) :=
  match maxId (g.nodes.map Node.id), maxId (g.elems.map Elem.id) with
  | .ok _, .ok maxE =>
    if n = 0 then .error .value
    else if g.frozen && g.elems.any (fun e => !excl e.data) then .error .frozen
    else match divideLoop interp n excl g.elems g.nodes maxE with
      | .error x => .error x
      | .ok (nodes, r) =>
        let elems := match method with
          | .append => r.map Prod.fst ++ r.flatMap Prod.snd
          | .insert => r.flatMap fun x => x.1 :: x.2
        .ok { g with nodes := nodes, elems := elems }
  | _, _ => .error .value

/-! ## Connectivity caches -/

/-- a graph object: node IDs in their order, elements with their node IDs, and the caches
(graph.py:172-176); `nodeElemIDs` is `none` until `connecticityHasChanged` creates the attribute -/
structure Obj where
  nodes : List Int := []
  elems : List (Int × List Int) := []
  nodeElemIDs : Option (List (Int × List Int)) := none
  nodeElems : List (Int × List (Int × List Int)) := []
  elemNodes : List (Int × List Int) := []
  conn : List (List Nat) := []
deriving DecidableEq, Repr

/-- an answer -/
inductive Ans where
  | ids (l : List (Int × List Int))
  | elems (l : List (Int × List (Int × List Int)))
  | conn (l : List (List Nat))
  | attributeError
deriving DecidableEq, Repr

/-- graph.py:224-227 -/
def calcElemIDs (o : Obj) : List (Int × List Int) :=
  o.nodes.map fun n => (n, (o.elems.filter fun e => n ∈ e.2).map Prod.fst)

/-- graph.py:235-236 -/
def calcElems (o : Obj) : List (Int × List (Int × List Int)) :=
  o.nodes.map fun n => (n, o.elems.filter fun e => n ∈ e.2)

/-- graph.py:244-246 -/
def calcElemNodes (o : Obj) : List (Int × List Int) := o.elems

/-- graph.py:255-256 -/
def calcConn (o : Obj) : List (List Nat) := o.elems.map fun e => e.2.map fun i => o.nodes.idxOf i

inductive Query where
  | nodeElemIDs | nodeElems | elemNodes | conn
deriving DecidableEq, Repr

/-- the queries (graph.py:219-258): a cache that is not empty is returned as it is -/
def query (o : Obj) : Query → Obj × Ans
  | .nodeElemIDs => match o.nodeElemIDs with
    | none => (o, .attributeError)
    | some [] => let r := calcElemIDs o; ({ o with nodeElemIDs := some r }, .ids r)
    | some (a :: l) => (o, .ids (a :: l))
  | .nodeElems => match o.nodeElems with
    | [] => let r := calcElems o; ({ o with nodeElems := r }, .elems r)
    | a :: l => (o, .elems (a :: l))
  | .elemNodes => match o.elemNodes with
    | [] => let r := calcElemNodes o; ({ o with elemNodes := r }, .ids r)
    | a :: l => (o, .ids (a :: l))
  | .conn => match o.conn with
    | [] => let r := calcConn o; ({ o with conn := r }, .conn r)
    | a :: l => (o, .conn (a :: l))

inductive Op where
  | addNode (i : Int)
  | addElement (e : Int × List Int)
  /-- `sortNodesBy`, `divideElements`: any change followed by `connecticityHasChanged` -/
  | change (nodes : List Int) (elems : List (Int × List Int))
  | ask (q : Query)
deriving DecidableEq, Repr

/-- one call (graph.py:179-188, 385-389, 478-479, 527-528) -/
def step (o : Obj) : Op → Obj × Option Ans
  | .addNode i => ({ o with nodes := o.nodes ++ [i] }, none)
  | .addElement e => ({ o with elems := o.elems ++ [e] }, none)
  | .change ns es => (⟨ns, es, some [], [], [], []⟩, none)
  | .ask q => let r := query o q; (r.1, some r.2)

/-- a history of calls with the answers -/
def run (o : Obj) : List Op → Obj × List (Query × Obj × Ans)
  | [] => (o, [])
  | op :: ops =>
    let r := step o op
    let t := run r.1 ops
    (t.1, (match op, r.2 with | .ask q, some a => [(q, o, a)] | _, _ => []) ++ t.2)

end Verif.Graph
