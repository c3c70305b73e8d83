import Verif.Model.Vtk
import Verif.Model.FastLine

/-!
# VTK legacy files, as read and written

Source: /repo/weio/vtk_file.py (`VTKFile.read` 89-140, `VTKFile.write` 143-193, sections
712-866, arrays 926-1078, writers 1205-1312), on top of the cells of `Verif.Model.Vtk`.

Simplifications:
* a file is a list of bytes, each a `Char` below 256; `utf8` gives what
  `.decode("utf-8")` makes of some of them;
* an array is its rows (first index), each row with its values in memory order, and the
  sizes of the other indices;
* what numpy does with numbers is a parameter (`Codec`);
* datasets of type STRUCTURED_GRID and RECTILINEAR_GRID, cells with OFFSETS (version 5.1),
  negative counts, and infos of the dataset given after other sections are not
  modelled (`unmodelled`).
-/
namespace Verif.VtkFile
open Verif.Py

/-- the exceptions -/
inductive Err where
  | unicode | read | key | index | value | wrong | unmodelled
  | cells (e : Vtk.Err)
deriving DecidableEq, Repr

/-- numpy and Python on bytes and numbers: item size, bytes of a number in big-endian
order and back (`tofile`, `fromfile`), texts of a number and back (`tofile`, `fromfile`
with a separator), integers as array items, `float(s)`, `numpy.linspace` with the end
point `ori + (dim-1)*spa`, the zero of `numpy.pad`, and `bytes.decode("utf-8")`; types
are named as numpy names them -/
structure Codec (V : Type) where
  size : String → Nat
  enc : String → V → Str
  dec : String → Str → V
  text : String → V → Str
  parse : String → Str → Option V
  ofNat : Nat → V
  toNat : V → Nat
  float : Str → Option V
  axis : V → V → Nat → List V
  zero : V
  utf8 : Str → Option Str

/-- an array: sizes of the indices after the first, and the rows -/
structure Arr (V : Type) where
  tail : List Nat
  rows : List (List V)
deriving DecidableEq, Repr

/-- the items in memory order -/
def Arr.flat {V : Type} (a : Arr V) : List V := a.rows.flatten

/-- `vtk_to_numpy_dtype_name` (602-617) -/
def vtkToNumpy : List (String × String) :=
  [("bit", "bool"), ("unsigned_char", "uint8"), ("char", "int8"), ("unsigned_short", "uint16"), ("short", "int16"),
   ("unsigned_int", "uint32"), ("int", "int32"), ("unsigned_long", "uint64"), ("long", "int64"), ("float", "float32"),
   ("double", "float64"), ("vtktypeint32", "int32"), ("vtktypeint64", "int64"), ("vtkidtype", "int32")]

/-- `numpy_to_vtk_dtype` (619-621), the names without `vtk` -/
def numpyToVtk : List (String × String) :=
  [("bool", "bit"), ("uint8", "unsigned_char"), ("int8", "char"), ("uint16", "unsigned_short"), ("int16", "short"),
   ("uint32", "unsigned_int"), ("int32", "int"), ("uint64", "unsigned_long"), ("int64", "long"), ("float32", "float"),
   ("float64", "double")]

/-- `vtk_to_numpy_dtype_name[t]` -/
def numpyName (t : Str) : Except Err String :=
  match vtkToNumpy.lookup (String.ofList t) with
  | some n => .ok n
  | none => .error .key

/-- `numpy_to_vtk_dtype[n]` -/
def vtkName (n : String) : Except Err Str :=
  match numpyToVtk.lookup n with
  | some t => .ok t.toList
  | none => .error .key

/-! ## Reading from the file -/

/-- `f.readline()`: the line with its end, and the rest -/
def readline : Str → Str × Str
  | [] => ([], [])
  | c :: r => if c = '\n' then (['\n'], r) else (c :: (readline r).1, (readline r).2)

/-- `f.readline().decode("utf-8")` -/
def textline {V : Type} (C : Codec V) (s : Str) : Except Err (Str × Str) :=
  match C.utf8 (readline s).1 with
  | none => .error .unicode
  | some t => .ok (t, (readline s).2)

/-- `int(s)`, counts: negative ones are not modelled -/
def count (s : Str) : Except Err Nat :=
  if FastLine.strIsInt s then
    if FastLine.pyInt s < 0 then .error .unmodelled else .ok (FastLine.pyInt s).toNat
  else .error .value

/-- `l[i]` on the words of a line -/
def word (l : List Str) (i : Nat) : Except Err Str :=
  match l[i]? with
  | some w => .ok w
  | none => .error .index

/-- `numpy.fromfile(f, count=n, dtype=dt)` -/
def fromBin {V : Type} (C : Codec V) (dt : String) : Nat → Str → List V × Str
  | 0, s => ([], s)
  | n + 1, s =>
    if s.length < C.size dt then ([], [])
    else (C.dec dt (s.take (C.size dt)) :: (fromBin C dt n (s.drop (C.size dt))).1, (fromBin C dt n (s.drop (C.size dt))).2)

/-- C `isspace` -/
def cspace (c : Char) : Bool := (9 ≤ c.toNat && c.toNat ≤ 13) || c.toNat == 32

/-- `numpy.fromfile(f, count=n, sep=" ", dtype=dt)`: white space is skipped before a
number and after it; the reading stops at what is not a number -/
def fromText {V : Type} (C : Codec V) (dt : String) : Nat → Str → List V × Str
  | 0, s => ([], s)
  | n + 1, s =>
    let s1 := s.dropWhile cspace
    match C.parse dt (s1.takeWhile fun c => !cspace c) with
    | none => ([], s1)
    | some v =>
      let r := (s1.dropWhile fun c => !cspace c).dropWhile cspace
      (v :: (fromText C dt n r).1, (fromText C dt n r).2)

/-- the array readers (926-965, 999-1008, 1023-1032, 1052-1062): text, or big-endian
bytes and then an empty line -/
def array {V : Type} (C : Codec V) (ascii : Bool) (dt : String) (n : Nat) (s : Str) : Except Err (List V × Str) :=
  if ascii then .ok (fromText C dt n s)
  else do
    let (t, r) ← textline C (fromBin C dt n s).2
    if t ≠ ['\n'] then .error .read else .ok ((fromBin C dt n s).1, r)

/-- `_read_cell_types` (968-978): bytes may lack the line end -/
def cellTypes {V : Type} (C : Codec V) (ascii : Bool) (n : Nat) (s : Str) : Except Err (List V × Str) :=
  if ascii then .ok (fromText C "int64" n s)
  else do
    let (t, r) ← textline C (fromBin C "int32" n s).2
    if strip t ≠ [] then .error .read else .ok ((fromBin C "int32" n s).1, r)

/-- `n` rows of `k` items -/
def chunk {V : Type} (k : Nat) : Nat → List V → List (List V)
  | 0, _ => []
  | n + 1, l => l.take k :: chunk k n (l.drop k)

/-- `data.reshape((n, *tail))` -/
def reshape {V : Type} (n : Nat) (tail : List Nat) (l : List V) : Except Err (Arr V) :=
  if l.length = n * tail.prod then .ok ⟨tail, chunk tail.prod n l⟩ else .error .value

/-- `data.reshape(-1, *tail)`, the sizes being positive -/
def reshapeAny {V : Type} (tail : List Nat) (l : List V) : Except Err (Arr V) :=
  reshape (l.length / tail.prod) tail l

/-- `d[k] = v` on a dictionary in the order of insertion -/
def setKey {A : Type} (d : List (Str × A)) (k : Str) (v : A) : List (Str × A) :=
  if k ∈ d.map Prod.fst then d.map fun p => if p.1 = k then (k, v) else p else d ++ [(k, v)]

/-- `d.update(e)` -/
def update {A : Type} (d e : List (Str × A)) : List (Str × A) := e.foldl (fun d p => setKey d p.1 p.2) d

/-- `_skip_meta` (1071-1078): up to an empty line (or the end); `fuel` lines at most -/
def skipMeta {V : Type} (C : Codec V) : Nat → Str → Except Err Str
  | 0, _ => .error .unmodelled
  | fuel + 1, s => do
    let (t, r) ← textline C s
    if strip t = [] then .ok r else skipMeta C fuel r

/-- `name, shape0, shape1, data_type = line` (1043-1045) -/
def four : List Str → Except Err (Str × Str × Str × Str)
  | [a, b, c, d] => .ok (a, b, c, d)
  | _ => .error .value

/-- the header of one field (1041-1045) -/
def fieldHead {V : Type} (C : Codec V) (s : Str) : Except Err ((Str × Str × Str × Str) × Str) := do
  let (t, r) ← textline C s
  let w ← word (words t) 0
  if w = "METADATA".toList then
    let r ← skipMeta C (r.length + 1) r
    let (t, r) ← textline C r
    let h ← four (words t)
    .ok (h, r)
  else
    let h ← four (words t)
    .ok (h, r)

/-- one field (1040-1066) -/
def field {V : Type} (C : Codec V) (ascii : Bool) (s : Str) : Except Err ((Str × Arr V) × Str) := do
  let ((name, w0, w1, ty), r) ← fieldHead C s
  let n0 ← count w0
  let n1 ← count w1
  let dt ← numpyName (lower ty)
  let (l, r) ← array C ascii dt (n0 * n1) r
  if n0 ≠ 1 then
    let a ← reshape n1 [n0] l
    .ok ((name, a), r)
  else .ok ((name, ⟨[], l.map fun v => [v]⟩), r)

/-- `_read_fields` (1038-1068) -/
def fields {V : Type} (C : Codec V) (ascii : Bool) : Nat → List (Str × Arr V) → Str → Except Err (List (Str × Arr V) × Str)
  | 0, d, s => .ok (d, s)
  | n + 1, d, s => do
    let ((k, a), r) ← field C ascii s
    fields C ascii n (setKey d k a) r

/-- `num_comp` (984-992) -/
def numComp (w : List Str) : Except Err Nat :=
  match w[3]? with
  | none => .ok 1
  | some t => do
    let n ← count t
    if 0 < n ∧ n < 5 then .ok n else .error .read

/-- `_read_scalar_field` (981-1011) -/
def scalars {V : Type} (C : Codec V) (ascii : Bool) (n : Nat) (w : List Str) (s : Str) : Except Err ((Str × Arr V) × Str) := do
  let name ← word w 1
  let ty ← word w 2
  let k ← numComp w
  let dt ← numpyName (lower ty)
  let (t, r) ← textline C s
  match words t with
  | [lt, _] =>
    if lt.map Char.toUpper ≠ "LOOKUP_TABLE".toList then .error .read
    else do
      let (l, r) ← array C ascii dt (n * k) r
      let a ← reshapeAny [k] l
      .ok ((name, a), r)
  | _ => .error .value

/-- `_read_field` (1014-1035) -/
def vectors {V : Type} (C : Codec V) (ascii : Bool) (n : Nat) (w : List Str) (tail : List Nat) (s : Str) :
    Except Err ((Str × Arr V) × Str) := do
  let name ← word w 1
  let ty ← word w 2
  let dt ← numpyName (lower ty)
  let (l, r) ← array C ascii dt (tail.prod * n) s
  let a ← reshapeAny tail l
  .ok ((name, a), r)

/-! ## Sections -/

/-- the last main section with data of its own -/
inductive Active where
  | none | dataset | points | cells | cellTypes | pointData | cellData
deriving DecidableEq, Repr

/-- what has been read so far (the attributes of `VTKFile`, 56-82) -/
structure Info (V : Type) where
  ascii : Bool := false
  active : Active := .none
  type : Option Str := none
  dims : Option (List Int) := none
  infos : List (Str × List V) := []
  points : Option (Arr V) := none
  c : Option (List V) := none
  ct : Option (List V) := none
  numItems : Nat := 0
  pointData : List (Str × Arr V) := []
  cellData : List (Str × Arr V) := []
  fieldData : List (Str × Arr V) := []

/-- `vtk_dataset_types` (624-629) -/
def datasetTypes : List String := ["UNSTRUCTURED_GRID", "STRUCTURED_POINTS", "STRUCTURED_GRID", "RECTILINEAR_GRID"]

/-- `vtk_sections` (649-659) -/
def sections : List String :=
  ["METADATA", "DATASET", "POINTS", "CELLS", "CELL_TYPES", "POINT_DATA", "CELL_DATA", "LOOKUP_TABLE", "COLOR_SCALARS"]

/-- `"OFFSETS" in line` for the line after CELLS; a line that is not text counts as empty
(732-738) -/
def offsetsLine {V : Type} (C : Codec V) (s : Str) : Bool :=
  match C.utf8 (readline s).1 with
  | none => false
  | some t => (find "OFFSETS".toList t).isSome

/-- `_read_section` (712-783) -/
def readSection {V : Type} (C : Codec V) (sec : String) (w : List Str) (i : Info V) (s : Str) : Except Err (Info V × Str) :=
  if sec = "METADATA" then do
    let r ← skipMeta C (s.length + 1) s
    .ok (i, r)
  else if sec = "DATASET" then do
    let t ← word w 1
    let ty := t.map Char.toUpper
    if String.ofList ty ∈ datasetTypes then .ok ({ i with active := .dataset, type := some ty }, s) else .error .read
  else if sec = "POINTS" then do
    let n ← (word w 1).bind count
    let ty ← word w 2
    let dt ← numpyName (lower ty)
    let (l, r) ← array C i.ascii dt (n * 3) s
    let a ← reshape n [3] l
    .ok ({ i with active := .points, points := some a }, r)
  else if sec = "CELLS" then
    if offsetsLine C s then .error .unmodelled
    else do
      let n ← (word w 2).bind count
      let (l, r) ← array C i.ascii "int32" n s
      .ok ({ i with active := .cells, numItems := n, c := some l }, r)
  else if sec = "CELL_TYPES" then do
    let n ← (word w 1).bind count
    let (l, r) ← cellTypes C i.ascii n s
    .ok ({ i with active := .cellTypes, numItems := n, ct := some l }, r)
  else if sec = "POINT_DATA" then do
    let n ← (word w 1).bind count
    .ok ({ i with active := .pointData, numItems := n }, s)
  else if sec = "CELL_DATA" then do
    let n ← (word w 1).bind count
    .ok ({ i with active := .cellData, numItems := n }, s)
  else if sec = "LOOKUP_TABLE" then do
    let n ← (word w 2).bind count
    .ok ({ i with numItems := n }, (fromText C "float64" (n * 4) s).2)
  else do
    let n ← (word w 2).bind count
    .ok (i, (fromBin C (if i.ascii then "float64" else "uint8") (i.numItems * n) s).2)

/-- `d.update(e)` for the dictionary of the active section (787-794); while the dataset is
active it is the dictionary of the dataset, whose arrays are not modelled -/
def store {V : Type} (i : Info V) (e : List (Str × Arr V)) : Except Err (Info V) :=
  match i.active with
  | .pointData => .ok { i with pointData := update i.pointData e }
  | .cellData => .ok { i with cellData := update i.cellData e }
  | .dataset => .error .unmodelled
  | _ => .ok { i with fieldData := update i.fieldData e }

/-- all of a list or the first error -/
def mapE {A B : Type} (f : A → Except Err B) : List A → Except Err (List B)
  | [] => .ok []
  | a :: l => do
    let b ← f a
    let t ← mapE f l
    .ok (b :: t)

/-- `int(s)` -/
def intOf (s : Str) : Except Err Int := if FastLine.strIsInt s then .ok (FastLine.pyInt s) else .error .value

/-- `float(s)` -/
def floatOf {V : Type} (C : Codec V) (s : Str) : Except Err V :=
  match C.float s with
  | some v => .ok v
  | none => .error .value

/-- the infos of structured points (796-811; 633-638) -/
def readInfo {V : Type} (C : Codec V) (sec : String) (w : List Str) (i : Info V) : Except Err (Info V) :=
  if i.active ≠ .dataset then .error .unmodelled
  else if sec = "DIMENSIONS" then do
    let l ← mapE intOf (w.drop 1)
    if l.length ≠ 3 then .error .read else .ok { i with dims := some l }
  else do
    let l ← mapE (floatOf C) (w.drop 1)
    if l.length ≠ 3 then .error .read else .ok { i with infos := setKey i.infos sec.toList l }

/-- `_read_subsection` (786-821) -/
def readSubsection {V : Type} (C : Codec V) (sec : String) (w : List Str) (i : Info V) (s : Str) : Except Err (Info V × Str) :=
  match i.type with
  | none => .error .key
  | some ty =>
    if ty = "STRUCTURED_GRID".toList ∨ ty = "RECTILINEAR_GRID".toList then .error .unmodelled
    else if ty = "STRUCTURED_POINTS".toList ∧ sec ∈ ["DIMENSIONS", "ORIGIN", "SPACING", "ASPECT_RATIO"] then do
      let i ← readInfo C sec w i
      .ok (i, s)
    else if sec = "SCALARS" then do
      let (e, r) ← scalars C i.ascii i.numItems w s
      let i ← store i [e]
      .ok (i, r)
    else if sec = "VECTORS" then do
      let (e, r) ← vectors C i.ascii i.numItems w [3] s
      let i ← store i [e]
      .ok (i, r)
    else if sec = "TENSORS" then do
      let (e, r) ← vectors C i.ascii i.numItems w [3, 3] s
      let i ← store i [e]
      .ok (i, r)
    else if sec = "FIELD" then do
      let n ← (word w 2).bind count
      let (e, r) ← fields C i.ascii n [] s
      let i ← store i e
      .ok (i, r)
    else .error .wrong

/-- one line of the loop (110-127) -/
def readLine {V : Type} (C : Codec V) (i : Info V) (t : Str) (s : Str) : Except Err (Info V × Str) :=
  match words t with
  | [] => .ok (i, s)
  | w :: ws =>
    let sec := String.ofList (w.map Char.toUpper)
    if sec ∈ sections then readSection C sec (w :: ws) i s else readSubsection C sec (w :: ws) i s

/-- the loop (110-127); every turn takes at least one byte, so that `fuel` is enough when
it is the number of bytes and one -/
def loop {V : Type} (C : Codec V) : Nat → Info V → Str → Except Err (Info V)
  | 0, _, _ => .error .unmodelled
  | fuel + 1, i, s => do
    let (t, r) ← textline C s
    if t = [] then .ok i
    else do
      let (i, r) ← readLine C i t r
      loop C fuel i r

/-- the sections of a file (99-127) -/
def readSections {V : Type} (C : Codec V) (s : Str) : Except Err (Info V) := do
  let s := (readline (readline s).2).2
  let (t, r) ← textline C s
  let ty := (strip t).map Char.toUpper
  if ty ≠ "ASCII".toList ∧ ty ≠ "BINARY".toList then .error .read
  else loop C (r.length + 1) { ascii := ty = "ASCII".toList } r

/-! ## After the sections -/

/-- `point_data_grid` (133-138): `a[i][j][l]` is a row of components -/
structure Grid (V : Type) where
  nx : Nat
  ny : Nat
  nz : Nat
  comps : Nat
  at_ : Nat → Nat → Nat → Nat → Option V

/-- what a file gives -/
structure Out (V : Type) where
  points : Option (Arr V)
  cells : List (Vtk.Name × List (List Nat))
  pointData : List (Str × Arr V)
  cellData : List (Str × List (Arr V))
  fieldData : List (Str × Arr V)
  axes : Option (List V × List V × List V)
  grid : List (Str × Grid V)

/-- `cell_data` (1155-1158) for one name; without polygons -/
def cellPieces {V : Type} (data types : List Nat) (p : Str × Arr V) : Except Err (Str × List (Arr V)) :=
  match Vtk.readCells data types p.2.rows with
  | .error e => .error (.cells e)
  | .ok (_, none) => .error .unmodelled
  | .ok (_, some fs) => .ok (p.1, fs.map fun rows => ⟨p.2.tail, rows⟩)

/-- `translate_cells` (131, 1082-1160); with a polygon there are no cell data (1091-1125) -/
def translateAll {V : Type} (data types : List Nat) (cd : List (Str × Arr V)) :
    Except Err (List (Vtk.Name × List (List Nat)) × List (Str × List (Arr V))) :=
  match Vtk.readCells data types ([] : List Unit) with
  | .error e => .error (.cells e)
  | .ok (bs, _) =>
    if 7 ∈ types then .ok (bs, []) else do
      let d ← mapE (cellPieces data types) cd
      .ok (bs, d)

/-- `PD.reshape(nx, ny, nz, PD.shape[1], order='F')` (138): in Fortran order the first
index is the fastest on both sides, so that item `(i, j, l, m)` has the place
`i + nx*(j + ny*(l + nz*m))`, counted along the rows first -/
def gridOf {V : Type} (nx ny nz : Nat) (a : Arr V) : Except Err (Grid V) :=
  match a.tail with
  | [] => .error .index
  | k :: t =>
    if a.rows.length * (k :: t).prod ≠ nx * ny * nz * k then .error .value
    else
      .ok ⟨nx, ny, nz, k, fun i j l m =>
        if i < nx ∧ j < ny ∧ l < nz ∧ m < k then
          -- the place in Fortran order
          let q := i + nx * (j + ny * (l + nz * m))
          (a.rows[q % a.rows.length]?).bind fun row => row[q / a.rows.length]?
        else none⟩

/-- one entry of `dataset` (835-843) -/
def getInfo {V : Type} (i : Info V) (k : String) : Except Err (List V) :=
  match i.infos.lookup k.toList with
  | some l => .ok l
  | none => .error .key

/-- the spacing: `SPACING` if given, otherwise `ASPECT_RATIO` (834-838) -/
def getSpacing {V : Type} (i : Info V) : Except Err (List V) :=
  if "SPACING".toList ∈ i.infos.map Prod.fst then getInfo i "SPACING" else getInfo i "ASPECT_RATIO"

/-- `_check_mesh` (834-854) and the grids (133-138) of structured points -/
def finishPoints {V : Type} (C : Codec V) (i : Info V) : Except Err (Out V) :=
  match i.dims with
  | none => .error .key
  | some dims => do
    let ori ← getInfo i "ORIGIN"
    let spa ← getSpacing i
    match dims, ori, spa with
    | [d0, d1, d2], [o0, o1, o2], [s0, s1, s2] =>
      if d0 < 0 ∨ d1 < 0 ∨ d2 < 0 then .error .value
      else
        let nx := d0.toNat
        let ny := d1.toNat
        let nz := d2.toNat
        let xs := C.axis o0 s0 nx
        let ys := C.axis o1 s1 ny
        let zs := C.axis o2 s2 nz
        match Vtk.genCells [nx, ny, nz] with
        | .error e => .error (.cells e)
        | .ok (c, ct) => do
          let (cells, cd) ← translateAll c.flatten ct i.cellData
          let g ← mapE (fun p : Str × Arr V => (gridOf nx ny nz p.2).map fun g => (p.1, g)) i.pointData
          .ok ⟨some ⟨[3], (Vtk.genPoints xs ys zs).map fun p => [p.1, p.2.1, p.2.2]⟩, cells, i.pointData, cd, i.fieldData,
            some (xs, ys, zs), g⟩
    | _, _, _ => .error .unmodelled

/-- `_check_mesh` (824-829) and the cells (131-133) of an unstructured grid -/
def finishCells {V : Type} (C : Codec V) (i : Info V) : Except Err (Out V) :=
  match i.c, i.ct with
  | some c, some ct => do
    let (cells, cd) ← translateAll (c.map C.toNat) (ct.map C.toNat) i.cellData
    .ok ⟨i.points, cells, i.pointData, cd, i.fieldData, none, []⟩
  | _, _ => .error .read

/-- after the sections (129-138) -/
def finish {V : Type} (C : Codec V) (i : Info V) : Except Err (Out V) :=
  match i.type with
  | none => .error .key
  | some ty =>
    if ty = "UNSTRUCTURED_GRID".toList then finishCells C i
    else if ty = "STRUCTURED_POINTS".toList then finishPoints C i
    else .error .unmodelled

/-- `VTKFile.read` (89-140) on the bytes of a file -/
def readFile {V : Type} (C : Codec V) (s : Str) : Except Err (Out V) := do
  let i ← readSections C s
  finish C i

/-! ## Writing -/

/-- an array with the name of its type -/
structure Field (V : Type) where
  dtype : String
  arr : Arr V
deriving DecidableEq, Repr

/-- what is written: points, cells, point data, cell data (one array for each block) -/
structure Mesh (V : Type) where
  points : Field V
  cells : List Vtk.Block
  pointData : List (Str × Field V)
  cellData : List (Str × List (Field V))

/-- `pad` where the array has two columns (155-171) -/
def padArr {V : Type} (C : Codec V) (a : Arr V) : Arr V :=
  if a.tail = [2] then ⟨[3], a.rows.map fun r => r ++ [C.zero]⟩ else a

/-- `pad` on an array with its type -/
def padField {V : Type} (C : Codec V) (f : Field V) : Field V := ⟨f.dtype, padArr C f.arr⟩

/-- a whole number as text -/
def num (n : Nat) : Str := FastLine.showInt n

/-- `values.tofile(f, sep)` (1217-1222, 1303-1308) -/
def dump {V : Type} (C : Codec V) (bin : Bool) (dt : String) (sep : Str) (l : List V) : Str :=
  if bin then l.flatMap (C.enc dt) else joinWith sep (l.map (C.text dt))

/-- `_write_points` (1205-1222) -/
def pointsText {V : Type} (C : Codec V) (bin : Bool) (f : Field V) : Except Err Str := do
  let t ← vtkName f.dtype
  .ok ("POINTS ".toList ++ num f.arr.rows.length ++ ' ' :: t ++ '\n' :: dump C bin f.dtype [' '] f.arr.flat ++ ['\n'])

/-- the bytes of the cells, block after block (1231-1257): with text each block ends
its line -/
def blocksText {V : Type} (C : Codec V) (bin : Bool) : List Vtk.Block → Except Err Str
  | [] => .ok []
  | b :: bs =>
    match Vtk.blockData b b.rows with
    | .error e => .error (.cells e)
    | .ok l => do
      let t ← blocksText C bin bs
      .ok (dump C bin (if bin then "int32" else "int64") ['\n'] (l.map C.ofNat) ++ (if bin then [] else ['\n']) ++ t)

/-- the bytes of the cell types (1261-1274) -/
def typesText {V : Type} (C : Codec V) (bin : Bool) : List Vtk.Block → Except Err Str
  | [] => .ok []
  | b :: bs =>
    match b.name.code with
    | .error e => .error (.cells e)
    | .ok c => do
      let t ← typesText C bin bs
      .ok (dump C bin (if bin then "int32" else "int64") ['\n'] (List.replicate b.rows.length (C.ofNat c)) ++
        (if bin then [] else ['\n']) ++ t)

/-- `_write_cells` (1225-1274) -/
def cellsText {V : Type} (C : Codec V) (bin : Bool) (bs : List Vtk.Block) : Except Err Str := do
  let nc := (bs.map fun b => b.rows.length).sum
  let ni := (bs.map fun b => b.rows.length * b.width).sum + nc
  let d ← blocksText C bin bs
  let t ← typesText C bin bs
  .ok ("CELLS ".toList ++ num nc ++ ' ' :: num ni ++ '\n' :: d ++ (if bin then ['\n'] else []) ++
    "CELL_TYPES ".toList ++ num nc ++ '\n' :: t ++ (if bin then ['\n'] else []))

/-- one field (1282-1312): the number of components is the second size -/
def fieldText {V : Type} (C : Codec V) (bin : Bool) (name : Str) (f : Field V) : Except Err Str :=
  if ' ' ∈ name then .error .read
  else do
    let t ← vtkName f.dtype
    .ok (name ++ ' ' :: num (f.arr.tail.headD 1) ++ ' ' :: num f.arr.rows.length ++ ' ' :: t ++ '\n' ::
      dump C bin f.dtype [' '] f.arr.flat ++ ['\n'])

/-- the fields one after another (1279-1312) -/
def fieldTexts {V : Type} (C : Codec V) (bin : Bool) : List (Str × Field V) → Except Err Str
  | [] => .ok []
  | (k, f) :: d => do
    let t ← fieldText C bin k f
    let r ← fieldTexts C bin d
    .ok (t ++ r)

/-- `_write_field_data` (1277-1312) -/
def fieldsText {V : Type} (C : Codec V) (bin : Bool) (d : List (Str × Field V)) : Except Err Str := do
  let t ← fieldTexts C bin d
  .ok ("FIELD FieldData ".toList ++ num d.length ++ '\n' :: t)

/-- `numpy.concatenate(values)` (1280-1281): no arrays and arrays of different row sizes
are errors; arrays of different types are not modelled -/
def concat {V : Type} : List (Field V) → Except Err (Field V)
  | [] => .error .value
  | f :: fs =>
    if ∀ g ∈ fs, g.arr.tail = f.arr.tail then
      if ∀ g ∈ fs, g.dtype = f.dtype then .ok ⟨f.dtype, ⟨f.arr.tail, (f :: fs).flatMap fun g => g.arr.rows⟩⟩ else .error .unmodelled
    else .error .value

/-- `concatenate` for one name -/
def concatNamed {V : Type} (C : Codec V) (p : Str × List (Field V)) : Except Err (Str × Field V) := do
  let f ← concat (p.2.map (padField C))
  .ok (p.1, f)

/-- the lines before the points (174-177) -/
def header (bin : Bool) : Str :=
  "# vtk DataFile Version 4.2".toList ++ '\n' :: "written ".toList ++ '\n' :: (if bin then "BINARY" else "ASCII").toList ++ '\n' ::
    "DATASET UNSTRUCTURED_GRID".toList ++ ['\n']

/-- the point data (183-186), if there are any -/
def pointDataText {V : Type} (C : Codec V) (bin : Bool) (m : Mesh V) : Except Err Str :=
  if m.pointData = [] then .ok []
  else do
    let t ← fieldsText C bin (m.pointData.map fun p => (p.1, padField C p.2))
    .ok ("POINT_DATA ".toList ++ num m.points.arr.rows.length ++ '\n' :: t)

/-- the cell data (189-192), if there are any -/
def cellDataText {V : Type} (C : Codec V) (bin : Bool) (m : Mesh V) : Except Err Str :=
  if m.cellData = [] then .ok []
  else do
    let l ← mapE (concatNamed C) m.cellData
    let t ← fieldsText C bin l
    .ok ("CELL_DATA ".toList ++ num (m.cells.map fun b => b.rows.length).sum ++ '\n' :: t)

/-- `VTKFile.write` (143-193): the bytes of the file; points must have at least two
indices (158) -/
def writeFile {V : Type} (C : Codec V) (bin : Bool) (m : Mesh V) : Except Err Str :=
  if m.points.arr.tail = [] then .error .index
  else do
    let p ← pointsText C bin (padField C m.points)
    let c ← cellsText C bin m.cells
    let pd ← pointDataText C bin m
    let cd ← cellDataText C bin m
    .ok (header bin ++ p ++ c ++ pd ++ cd)

end Verif.VtkFile
