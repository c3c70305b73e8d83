import Verif.Py.Str
/-!
# VTK files: generated grids and unstructured cells

`/repo/weio/vtk_file.py`.  Arrays are lists; the binary/ASCII encoding of the numbers
(`>i4`, `tofile`, `fromfile`) is not modelled, the model starts from the arrays of
integers that are written and read.
-/
namespace Verif.Vtk
open Verif.Py

/-- exceptions -/
inductive Err where
  | index    -- IndexError
  | read     -- ReadError (= BrokenFormatError, vtk_file.py:465-466)
  | key      -- KeyError
deriving DecidableEq, Repr

/-! ## Generated cells and points (869-923) -/

/-- one row of `cells` in one dimension (874-880) -/
def cell1 (e : Nat) : List Nat := [2, e, e + 1]

/-- one row of `cells` in two dimensions (882-891); `m0` is `ele_dim[0]` -/
def cell2 (m0 e : Nat) : List Nat :=
  let c1 := e + e / m0
  let c3 := c1 + 2 + m0
  [4, c1, c1 + 1, c3, c3 - 1]

/-- one row of `cells` in three dimensions (892-908) -/
def cell3 (m0 m1 e : Nat) : List Nat :=
  let c1 := e + (m0 + m1 + 1) * (e / (m0 * m1)) + e % (m0 * m1) / m0
  let c3 := c1 + 2 + m0
  let c5 := c1 + (1 + m0) * (1 + m1)
  let c7 := c5 + 2 + m0
  [8, c1, c1 + 1, c3, c3 - 1, c5, c5 + 1, c7, c7 - 1]

/-- `_generate_cells(dim)` (869-910): the rows of `cells` and the cell types -/
def genCells (dim : List Nat) : Except Err (List (List Nat) × List Nat) :=
  match (dim.filter (fun d => 1 < d)).map (fun d => d - 1) with
  | [m0] => .ok ((List.range m0).map cell1, List.replicate m0 3)
  | [m0, m1] => .ok ((List.range (m0 * m1)).map (cell2 m0), List.replicate (m0 * m1) 9)
  | m0 :: m1 :: ms =>
    .ok ((List.range (m0 * m1 * ms.prod)).map (cell3 m0 m1), List.replicate (m0 * m1 * ms.prod) 12)
  | [] => .error .index   -- `ele_dim[0]` (897): the product of no dimensions is one cell

/-- `_generate_points(axis)` (912-923): Fortran order, the first coordinate fastest -/
def genPoints (xs ys zs : List α) : List (α × α × α) :=
  zs.flatMap (fun z => ys.flatMap (fun y => xs.map (fun x => (x, y, z))))

/-! ## Unstructured cells -/

/-- `vtk_to_meshio_type` (486-544) -/
def typeTable : List (Nat × String) :=
  [(0, "empty"), (1, "vertex"), (3, "line"), (5, "triangle"), (7, "polygon"), (8, "pixel"), (9, "quad"),
   (10, "tetra"), (12, "hexahedron"), (13, "wedge"), (14, "pyramid"), (15, "penta_prism"), (16, "hexa_prism"),
   (21, "line3"), (22, "triangle6"), (23, "quad8"), (24, "tetra10"), (25, "hexahedron20"), (26, "wedge15"),
   (27, "pyramid13"), (28, "quad9"), (29, "hexahedron27"), (30, "quad6"), (31, "wedge12"), (32, "wedge18"),
   (33, "hexahedron24"), (34, "triangle7"), (35, "line4"), (42, "polyhedron"),
   (68, "VTK_LAGRANGE_CURVE"), (69, "VTK_LAGRANGE_TRIANGLE"), (70, "VTK_LAGRANGE_QUADRILATERAL"),
   (71, "VTK_LAGRANGE_TETRAHEDRON"), (72, "VTK_LAGRANGE_HEXAHEDRON"), (73, "VTK_LAGRANGE_WEDGE"),
   (74, "VTK_LAGRANGE_PYRAMID"), (75, "VTK_BEZIER_CURVE"), (76, "VTK_BEZIER_TRIANGLE"),
   (77, "VTK_BEZIER_QUADRILATERAL"), (78, "VTK_BEZIER_TETRAHEDRON"), (79, "VTK_BEZIER_HEXAHEDRON"),
   (80, "VTK_BEZIER_WEDGE"), (81, "VTK_BEZIER_PYRAMID")]

/-- names of cell types: those of the table, and `polygon<n>` (1114-1116).  Names are
kept as data and not as strings; `poly n` stands for `"polygon" + str(n)` -/
inductive Name where
  | tab (code : Nat)
  | poly (n : Nat)
deriving DecidableEq, Repr

/-- `meshio_to_vtk_type[key_]` (1263-1264, 1272-1273) -/
def Name.code : Name → Except Err Nat
  | .tab c => if c ∈ typeTable.map Prod.fst then .ok c else .error .key
  | .poly _ => .ok 7

/-- `vtk_type_to_numnodes` (558-597) -/
def numNodesTable : List Int :=
  [0, 1, -1, 2, -1, 3, -1, -1, -1, 4, 4, -1, 8, 6, 5, 10, 12, -1, -1, -1, -1, 3, 6, 8, 10, 20, 15, 13, 9, 27, 6,
   12, 18, 24, 7, 4]

/-- `vtk_type_to_numnodes[types]` for one type -/
def numNodes (t : Nat) : Except Err Int :=
  match numNodesTable[t]? with
  | some n => .ok n
  | none => .error .index

/-- node order (468-484): the same permutation in both directions -/
def nodeOrder (wedge : Bool) (n : Nat) : List Nat :=
  if wedge then [0, 2, 1, 3, 5, 4] else List.range n

/-- fancy indexing `data[idx]`: IndexError when out of bounds -/
def takeAt (data : List Nat) : List Nat → Except Err (List Nat)
  | [] => .ok []
  | i :: is =>
    match data[i]? with
    | none => .error .index
    | some x => match takeAt data is with
      | .error e => .error e
      | .ok xs => .ok (x :: xs)

/-- a cell block: its type, its number of columns (`data.shape[1]`) and its rows -/
structure Block where
  name : Name
  width : Nat
  rows : List (List Nat)
deriving DecidableEq, Repr

/-- the numbers written for one block (1231-1257) -/
def blockData (b : Block) : List (List Nat) → Except Err (List Nat)
  | [] => .ok []
  | r :: rs =>
    match takeAt r (nodeOrder (b.name = .tab 13) b.width), blockData b rs with
    | .ok x, .ok xs => .ok (b.width :: x ++ xs)
    | .error e, _ => .error e
    | _, .error e => .error e

/-- `_write_cells` (1225-1274): connectivity and types -/
def writeCells : List Block → Except Err (List Nat × List Nat)
  | [] => .ok ([], [])
  | b :: bs =>
    match blockData b b.rows, b.name.code, writeCells bs with
    | .ok d, .ok c, .ok (ds, ts) => .ok (d ++ ds, List.replicate b.rows.length c ++ ts)
    | .error e, _, _ => .error e
    | _, .error e, _ => .error e
    | _, _, .error e => .error e

/-- `numpy.cumsum(numnodes + 1) - (numnodes + 1)` (1139) -/
def offsetsFrom (start : Nat) : List Nat → List Nat
  | [] => []
  | n :: ns => start :: offsetsFrom (start + n + 1) ns

/-- the checks on numbers of nodes (1130-1132): all positive -/
def nodesOf : List Nat → Except Err (List Nat)
  | [] => .ok []
  | t :: ts =>
    match numNodes t, nodesOf ts with
    | .error e, _ => .error e
    | .ok _, .error e => .error e
    | .ok n, .ok ns => if 0 < n then .ok (n.toNat :: ns) else .error .read

/-- the rows `conn[indices]` (1152-1154) -/
def rowsAt (data : List Nat) : List (Nat × Nat × Nat) → Except Err (List (Nat × List Nat))
  | [] => .ok []
  | (t, n, o) :: r =>
    match takeAt data ((nodeOrder (t = 13) n).map (fun i => o + 1 + i)), rowsAt data r with
    | .ok x, .ok xs => .ok ((t, x) :: xs)
    | .error e, _ => .error e
    | _, .error e => .error e

/-- consecutive cells of the same type form a block (1146-1154) -/
def runs [DecidableEq κ] : List (κ × α) → List (κ × List α)
  | [] => []
  | (t, x) :: r =>
    match runs r with
    | (t', xs) :: bs => if t = t' then (t, x :: xs) :: bs else (t, [x]) :: (t', xs) :: bs
    | [] => [(t, [x])]

/-- consecutive pieces of the given lengths: `d[start:end]` (1155-1158) -/
def pieces (d : List β) : List Nat → List (List β)
  | [] => []
  | n :: ns => d.take n :: pieces (d.drop n) ns

/-- `translate_cells` without polygons (1126-1160), `data` being one vector: blocks as
(type, rows) and the pieces of one field of cell data -/
def translate (data types : List Nat) (field : List β) : Except Err (List (Nat × List (List Nat)) × List (List β)) :=
  match nodesOf types with
  | .error e => .error e
  | .ok ns =>
    match takeAt data (offsetsFrom 0 ns) with
    | .error e => .error e
    | .ok heads =>
      if heads ≠ ns then .error .read
      else if types = [] then .error .index   -- `types[start]` (1150)
      else match rowsAt data (types.zip (ns.zip (offsetsFrom 0 ns))) with
        | .error e => .error e
        | .ok rows => .ok (runs rows, pieces field ((runs rows).map (fun b => b.2.length)))

/-- offsets and sizes when there are polygons (1092-1104): read along the data -/
def polyWalk (data : List Nat) : Nat → Nat → Except Err (List (Nat × Nat))
  | 0, _ => .ok []
  | k + 1, o =>
    match data[o]? with
    | none => .error .index
    | some n => match polyWalk data k (o + n + 1) with
      | .error e => .error e
      | .ok r => .ok ((n, o) :: r)

/-- name of a cell (1114-1116) -/
def polyName (t n : Nat) : Except Err Name :=
  if t ∈ typeTable.map Prod.fst then .ok (if t = 7 then .poly n else .tab t) else .error .key

/-- the loop over the cells (1107-1125) -/
def polyRows (data : List Nat) : List (Nat × Nat × Nat) → Except Err (List (Name × List Nat))
  | [] => .ok []
  | (t, n, o) :: r =>
    match takeAt data ((nodeOrder (t = 13) n).map (fun i => o + 1 + i)) with
    | .error e => .error e
    | .ok x =>
      match polyName t n with
      | .error e => .error e
      | .ok nm =>
        match polyRows data r with
        | .error e => .error e
        | .ok xs => .ok ((nm, x) :: xs)

/-- `translate_cells` with polygons (1091-1125): blocks by name; the cell data are
dropped -/
def translatePoly (data types : List Nat) : Except Err (List (Name × List (List Nat))) :=
  match polyWalk data types.length 0 with
  | .error e => .error e
  | .ok w =>
    match polyRows data (types.zip w) with
    | .error e => .error e
    | .ok rows => .ok (runs rows)

/-- `translate_cells` (1082-1160) on one connectivity vector and one field of cell data
(`cell_data` has no entry for the field when there is a polygon) -/
def readCells (data types : List Nat) (field : List β) :
    Except Err (List (Name × List (List Nat)) × Option (List (List β))) :=
  if 7 ∈ types then
    match translatePoly data types with
    | .error e => .error e
    | .ok bs => .ok (bs, none)
  else match translate data types field with
    | .error e => .error e
    | .ok (bs, fs) => .ok (bs.map (fun b => (Name.tab b.1, b.2)), some fs)

end Verif.Vtk
