import Verif.Py.Str
import Mathlib.Algebra.Ring.Basic
/-!
# Graphs of SubDyn and HydroDyn files

`/repo/weio/fast_input_file_graph.py`, with the parts of `/repo/weio/tools/graph.py` it calls: nodes, elements and properties are stored and looked
up by ID (graph.py:176-204), data of nodes are dictionaries (graph.py:50-55).

The tables are given as rows of values of a type `V`; `int` of a value is a parameter, and values that are compared with IDs are taken to be
integers.  Simplifications: an element keeps the IDs of its nodes (the
code keeps references to the first nodes with these IDs); colours and `object` are left out; modes are left out.
-/
namespace Verif.FastGraph
open Verif.Py

/-- exceptions -/
inductive Err where
  | key              -- KeyError: an ID or a set that is not there (graph.py:188-204)
  | index            -- IndexError: a row too short, a type without a set
  | notImplemented   -- NotImplementedError (25, 98, 167, 188)
  | plain            -- Exception of `addMiscProperty` (graph.py:288-292)
deriving DecidableEq, Repr

/-- values of the data of nodes -/
inductive Val (V : Type) where
  | num (x : V)
  | list (xs : List V)
  | mat (rows : List (List V))
deriving DecidableEq, Repr

/-- a property (graph.py:64-79) -/
structure Property (V : Type) where
  id : Int
  data : List (String × V)
deriving DecidableEq, Repr

/-- a node (graph.py:42-55) -/
structure Node (V : Type) where
  id : Int
  x : V
  y : V
  z : V
  data : List (String × Val V)
deriving DecidableEq, Repr

/-- an element (graph.py:101-124) with the properties it was given (graph.py:183-184); `kind` is `Type` or `CoefMod` -/
structure Elem (V : Type) where
  id : Int
  nodeIDs : List Int
  propset : String
  propIDs : List Int
  props : List (Property V)
  kind : String
deriving DecidableEq, Repr

/-- a graph (graph.py:160-175); property sets are filled before nodes and elements are added -/
structure Graph (V : Type) where
  sets : List (String × List (Property V)) := []
  misc : List String := []
  nodes : List (Node V) := []
  elems : List (Elem V) := []
deriving DecidableEq, Repr

section
variable {V : Type}

/-- `row[i]` -/
def item {A : Type} (row : List A) (i : Nat) : Except Err A :=
  match row[i]? with
  | some v => .ok v
  | none => .error .index

/-- a loop that stops at the first exception -/
def each {A B : Type} (f : A → Except Err B) : List A → Except Err (List B)
  | [] => .ok []
  | a :: l =>
    match f a with
    | .error e => .error e
    | .ok b =>
      match each f l with
      | .error e => .error e
      | .ok bs => .ok (b :: bs)

/-- a loop that hands on the graph -/
def fold {A G : Type} (f : G → A → Except Err G) : G → List A → Except Err G
  | g, [] => .ok g
  | g, a :: l =>
    match f g a with
    | .error e => .error e
    | .ok g => fold f g l

/-- `self.data[k]=v` (graph.py:55) -/
def setKey (d : List (String × Val V)) (k : String) (v : Val V) : List (String × Val V) :=
  if d.any (fun x => x.1 == k) then d.map fun x => if x.1 = k then (k, v) else x else d ++ [(k, v)]

/-- `setData` (graph.py:50-55) -/
def setData (n : Node V) (kvs : List (String × Val V)) : Node V := { n with data := kvs.foldl (fun d kv => setKey d kv.1 kv.2) n.data }

/-- `getNode(i).setData(…)` (graph.py:188-192): the first node with the ID -/
def setAt (kvs : List (String × Val V)) (i : Int) : List (Node V) → Except Err (List (Node V))
  | [] => .error .key
  | n :: l =>
    if n.id = i then .ok (setData n kvs :: l)
    else
      match setAt kvs i l with
      | .error e => .error e
      | .ok l => .ok (n :: l)

/-- `getNodeProperty` (graph.py:200-204) -/
def getProp (g : Graph V) (set : String) (i : Int) : Except Err (Property V) :=
  match g.sets.find? fun x => x.1 == set with
  | none => .error .key
  | some x =>
    match x.2.find? fun p => decide (p.id = i) with
    | none => .error .key
    | some p => .ok p

/-- `addElement` (graph.py:179-185) -/
def addElement (g : Graph V) (id : Int) (nodeIDs : List Int) (propset : String) (propIDs : List Int) (kind : String) : Except Err (Graph V) :=
  if nodeIDs.all fun i => g.nodes.any fun n => decide (n.id = i) then
    match each (getProp g propset) propIDs with
    | .error e => .error e
    | .ok ps => .ok { g with elems := g.elems ++ [⟨id, nodeIDs, propset, propIDs, ps, kind⟩] }
  else .error .key

/-- `NodeProperty(ID=P[0], a=P[1], …)` -/
def propOf (int : V → Int) (names : List String) (P : List V) : Except Err (Property V) :=
  match P with
  | [] => .error .index
  | p :: l => if l.length < names.length then .error .index else .ok ⟨int p, names.zip l⟩

/-- `NodeProperty(ID=ip+1, a=P[0], …)` -/
def propNo (names : List String) (x : List V × Nat) : Property V := ⟨(x.2 : Int) + 1, names.zip x.1⟩

/-! ## SubDyn -/

/-- the tables of a SubDyn file; `BeamProp` is there (16), `CableProp` and `RigidProp` may not be -/
structure SubDyn (V : Type) where
  beam : List (List V)
  cable : Option (List (List V))
  rigid : Option (List (List V))
  joints : List (List V)
  members : List (List V)
  masses : List (List V)
  interface : List (List V)
  base : List (List V)

/-- a cable (55-56); `minus` is -1 -/
def cableProp (int : V → Int) (minus : V) (P : List V) : Except Err (Property V) :=
  match P with
  | i :: ea :: rho :: t0 :: rest => .ok ⟨int i, [("EA", ea), ("rho", rho), ("T0", t0), ("Chan", rest.headD minus)]⟩
  | _ => .error .index

/-- a joint (69-71); `one` is 1 -/
def joint (int : V → Int) (one : V) (N : List V) : Except Err (Node V) :=
  match N with
  | i :: x :: y :: z :: rest => .ok ⟨int i, x, y, z, [("Type", .num (rest.headD one))]⟩
  | _ => .error .index

/-- `PropSets[Type-1]` (79), with `type2Color[Type]` (81): negative indices count from the end -/
def setOf (t : Int) : Except Err String :=
  if t = 1 ∨ t = -2 then .ok "Beam"
  else if t = 2 ∨ t = -1 then .ok "Cable"
  else if t = 3 ∨ t = 0 then .ok "Rigid"
  else .error .index

/-- a member (77-82) -/
def member (g : Graph V) (E : List Int) : Except Err (Graph V) :=
  let t : Except Err Int := if E.length = 5 then .ok 1 else item E 5
  match t with
  | .error e => .error e
  | .ok t =>
    match setOf t with
    | .error e => .error e
    | .ok set => addElement g (E.headD 0) ((E.drop 1).take 2) set ((E.drop 3).take 2) set

/-- `M66` (102-107) -/
def massMatrix [Ring V] (m x y z Jxx Jyy Jzz Jxy Jxz Jyz : V) : List (List V) :=
  [[m, 0, 0, 0, z * m, -y * m],
   [0, m, 0, -z * m, 0, x * m],
   [0, 0, m, y * m, -x * m, 0],
   [0, -z * m, y * m, Jxx + m * (y ^ 2 + z ^ 2), Jxy - m * x * y, Jxz - m * x * z],
   [z * m, 0, -x * m, Jxy - m * x * y, Jyy + m * (x ^ 2 + z ^ 2), Jyz - m * y * z],
   [-y * m, x * m, 0, Jxz - m * x * z, Jyz - m * y * z, Jzz + m * (x ^ 2 + y ^ 2)]]

/-- a concentrated mass (89-108) -/
def mass [Ring V] (int : V → Int) (g : Graph V) (CM : List V) : Except Err (Graph V) :=
  match CM with
  | [] => .error .index
  | i :: l =>
    if g.nodes.any fun n => decide (n.id = int i) then
      match l with
      | [m, Jxx, Jyy, Jzz, Jxy, Jxz, Jyz, x, y, z] =>
        match setAt [("addedMassMatrix", .mat (massMatrix m x y z Jxx Jyy Jzz Jxy Jxz Jyz))] (int i) g.nodes with
        | .error e => .error e
        | .ok ns => .ok { g with nodes := ns }
      | _ => .error .notImplemented
    else .error .key

/-- a row of the interface or base joints (112-113, 115-117); `conv` is applied to the values -/
def boundary (int : V → Int) (key : String) (conv : List V → List V) (g : Graph V) (N : List V) : Except Err (Graph V) :=
  match N with
  | [] => .error .index
  | i :: l =>
    match setAt [(key, .list (conv l))] (int i) g.nodes with
    | .error e => .error e
    | .ok ns => .ok { g with nodes := ns }

/-- `int(n) if i<7 else n` for the values behind the first (115); `round` is `int` as a value -/
def toInts (round : V → V) (l : List V) : List V := (l.take 6).map round ++ l.drop 6

/-- a property set that may not be there -/
def optSet (name : String) (f : List V → Except Err (Property V)) : Option (List (List V)) → Except Err (List (String × List (Property V)))
  | none => .ok []
  | some rows =>
    match each f rows with
    | .error e => .error e
    | .ok ps => .ok [(name, ps)]

/-- `subdynToGraph` (30-121) -/
def subdyn [Ring V] (int : V → Int) (round : V → V) (sd : SubDyn V) : Except Err (Graph V) :=
  match each (propOf int ["E", "G", "rho", "D", "t"]) sd.beam with
  | .error e => .error e
  | .ok bs =>
  match optSet "Cable" (cableProp int (-1)) sd.cable with
  | .error e => .error e
  | .ok cs =>
  match optSet "Rigid" (propOf int ["rho"]) sd.rigid with
  | .error e => .error e
  | .ok rs =>
  match each (joint int 1) sd.joints with
  | .error e => .error e
  | .ok ns =>
  match fold member { sets := ("Beam", bs) :: cs ++ rs, nodes := ns } (sd.members.map fun r => r.map int) with
  | .error e => .error e
  | .ok g =>
  match fold (mass int) g sd.masses with
  | .error e => .error e
  | .ok g =>
  match fold (boundary int "IBC" id) g sd.interface with
  | .error e => .error e
  | .ok g => fold (boundary int "RBC" (toInts round)) g sd.base

/-! ## HydroDyn -/

/-- a member of HydroDyn (213-216): IDs, `MCoefMod`, `PropPot` (the division size is left out) -/
structure HMember where
  id : Int
  joints : List Int
  props : List Int
  coef : Int
  pot : Str

/-- the tables of a HydroDyn file -/
structure HydroDyn (V : Type) where
  sections : Option (List (List V))
  axial : Option (List (List V))
  simple : List (List V)
  depth : Option (List (List V))
  memberCoefs : Option (List (List V))
  fill : Option (List (List V))
  growth : Option (List (List V))
  joints : List (List V)
  members : List HMember

/-- the names of the simple coefficients (163, 165) -/
def simpleProp (x : List V × Nat) : Except Err (Property V) :=
  if x.1.length = 12 then .ok (propNo ["Cd", "CdMG", "Ca", "CaMG", "Cp", "CpMG", "AxCd", "AxCdMG", "AxCa", "AxCaMG", "AxCp", "AxCpMG"] x)
  else if x.1.length = 10 then .ok (propNo ["Cd", "CdMG", "Ca", "CaMG", "Cp", "CpMG", "AxCa", "AxCaMG", "AxCp", "AxCpMG"] x)
  else .error .notImplemented

/-- a set of other properties (169-199): each row is refused, as the property is no `ElemProperty` (graph.py:289-291), or as its row is too short (`n` values are
taken), or with `raise NotImplementedError` for filled members (188) -/
def miscSet (name : String) (n : Nat) (bad : Err) : Option (List (List V)) → Except Err (List String)
  | none => .ok []
  | some [] => .ok [name]
  | some (P :: _) => if P.length < n then .error .index else .error bad

/-- a joint with its axial coefficients (204-206) -/
def hjoint (int : V → Int) (g : Graph V) (N : List V) : Except Err (Graph V) :=
  match N with
  | i :: x :: y :: z :: rest =>
    match rest with
    | [] => .error .index
    | a :: _ =>
      match getProp g "AxCoefs" (int a) with
      | .error e => .error e
      | .ok p => .ok { g with nodes := g.nodes ++ [setData ⟨int i, x, y, z, []⟩ (p.data.map fun kv => (kv.1, .num kv.2))] }
  | _ => .error .index

/-- `PropSets[Type-1]` (216) -/
def coefOf (t : Int) : Except Err String :=
  if t = 1 ∨ t = -2 then .ok "SimpleCoefs"
  else if t = 2 ∨ t = -1 then .ok "DepthCoefs"
  else if t = 3 ∨ t = 0 then .ok "MemberCoefs"
  else .error .index

/-- `setElementNodalProp` (graph.py:295-300) for two nodes and the coefficients with ID 1 -/
def setBoth (g : Graph V) (ids : List Int) : Except Err (Graph V) :=
  fold (fun g i =>
    match getProp g "SimpleCoefs" 1 with
    | .error e => .error e
    | .ok p =>
      match setAt (p.data.map fun kv => (kv.1, .num kv.2)) i g.nodes with
      | .error e => .error e
      | .ok ns => .ok { g with nodes := ns }) g ids

/-- a member (213-226); an empty `PropPot` raises IndexError -/
def hmember (g : Graph V) (E : HMember) : Except Err (Graph V) :=
  if E.pot = [] then .error .index
  else
    match coefOf E.coef with
    | .error e => .error e
    | .ok c =>
      match addElement g E.id E.joints "Section" E.props c with
      | .error e => .error e
      | .ok g => if E.coef = 1 then setBoth g E.joints else .ok g

/-- `hydrodynToGraph` (130-228), for a file with simple coefficients (19) -/
def hydrodyn (int : V → Int) (hd : HydroDyn V) : Except Err (Graph V) :=
  match optSet "Section" (propOf int ["D", "t"]) hd.sections with
  | .error e => .error e
  | .ok ss =>
  match optSet "AxCoefs" (propOf int ["JAxCd", "JAxCa", "JAxCp"]) hd.axial with
  | .error e => .error e
  | .ok as =>
  match each simpleProp hd.simple.zipIdx with
  | .error e => .error e
  | .ok cs =>
  match miscSet "DepthCoefs" 13 .plain hd.depth with
  | .error e => .error e
  | .ok m1 =>
  match miscSet "MemberCoefs" 24 .plain hd.memberCoefs with
  | .error e => .error e
  | .ok m2 =>
  match miscSet "FillGroups" 0 .notImplemented hd.fill with
  | .error e => .error e
  | .ok m3 =>
  match miscSet "MG" 3 .plain hd.growth with
  | .error e => .error e
  | .ok m4 =>
  match fold (hjoint int) { sets := ss ++ as ++ [("SimpleCoefs", cs)], misc := m1 ++ m2 ++ m3 ++ m4 } hd.joints with
  | .error e => .error e
  | .ok g => fold hmember g hd.members

/-! ## Summary file of SubDyn -/

/-- a node of the summary (255-260): its degrees of freedom are those of its ID in `DOF2Nodes` -/
structure SNode (V : Type) where
  id : Int
  x : V
  y : V
  z : V
  type : Int
  dofs : List Int
deriving DecidableEq, Repr

/-- an element of the summary (266-271) -/
structure SElem (V : Type) where
  id : Int
  nodeIDs : List Int
  type : Int
  area : V
  rho : V
  E : V
  G : V
deriving DecidableEq, Repr

/-- a node (258-260); a row of `DOF2Nodes` has the degree of freedom and the node first -/
def sumNode (int : V → Int) (dofs : List (Int × Int)) (N : List V) : Except Err (SNode V) :=
  match N with
  | i :: x :: y :: z :: t :: _ => .ok ⟨int i, x, y, z, int t, (dofs.filter fun d => d.2 = int i).map Prod.fst⟩
  | _ => .error .index

/-- an element (266-272): the area is taken for the modulus of elasticity and the density for the shear modulus (269); `type2Color[Type]` has five entries (271) -/
def sumElem (int : V → Int) (ids : List Int) (E : List V) : Except Err (SElem V) :=
  match E with
  | i :: a :: b :: _ :: _ :: t :: _ :: area :: rho :: _ =>
    if int t < -5 ∨ 4 < int t then .error .index
    else if int a ∈ ids ∧ int b ∈ ids then .ok ⟨int i, [int a, int b], int t, area, rho, area, rho⟩
    else .error .key
  | _ => .error .index

/-- nodes and elements of `subdynSumToGraph` (253-272) -/
def summary (int : V → Int) (dofs : List (Int × Int)) (nodes elems : List (List V)) : Except Err (List (SNode V) × List (SElem V)) :=
  match each (sumNode int dofs) nodes with
  | .error e => .error e
  | .ok ns =>
    match each (sumElem int (ns.map SNode.id)) elems with
    | .error e => .error e
    | .ok es => .ok (ns, es)

end

end Verif.FastGraph
