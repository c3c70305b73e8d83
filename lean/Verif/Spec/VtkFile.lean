import Verif.Model.VtkFile
import Verif.Props.Vtk
import Verif.Lemmas.Str

/-!
# What a VTK file says
-/
namespace Verif.VtkFile
open Verif.Py

/-- only ASCII characters -/
def Ascii (s : Str) : Prop := ∀ c ∈ s, c.toNat < 128

/-- what is used of Python and numpy: `decode` leaves ASCII text as it is and makes no
ASCII text appear; whole numbers below 2^24 keep their value as array items, as four
bytes of which the first is zero, and as decimal texts -/
structure Codec.Laws {V : Type} (C : Codec V) : Prop where
  ascii : ∀ s, Ascii s → C.utf8 s = some s
  infix_ : ∀ s t w, Ascii w → C.utf8 s = some t → w <:+: t → w <:+: s
  nat : ∀ n, C.toNat (C.ofNat n) = n
  size4 : C.size "int32" = 4
  bytes : ∀ n < 2 ^ 24, ∃ a b c, C.enc "int32" (C.ofNat n) = ['\x00', a, b, c]
  decInt : ∀ n < 2 ^ 24, C.dec "int32" (C.enc "int32" (C.ofNat n)) = C.ofNat n
  textInt : ∀ n, C.text "int64" (C.ofNat n) = num n
  parse32 : ∀ n < 2 ^ 24, C.parse "int32" (num n) = some (C.ofNat n)
  parse64 : ∀ n < 2 ^ 24, C.parse "int64" (num n) = some (C.ofNat n)

/-- a number is kept by the form of the file: as bytes of the size of its type, or as a
text without white space -/
def Kept {V : Type} (C : Codec V) (bin : Bool) (dt : String) (v : V) : Prop :=
  if bin then (C.enc dt v).length = C.size dt ∧ C.dec dt (C.enc dt v) = v
  else C.text dt v ≠ [] ∧ (∀ c ∈ C.text dt v, cspace c = false) ∧ C.parse dt (C.text dt v) = some v

/-- a name that can stand on the line of a field -/
def GoodName (s : Str) : Prop := IsWord s ∧ Ascii s ∧ s ≠ "METADATA".toList

/-- an array of scalars or of rows of `k` numbers, of a type that VTK has, not empty, all
its numbers kept -/
structure GoodField {V : Type} (C : Codec V) (bin : Bool) (f : Field V) : Prop where
  type : f.dtype ∈ numpyToVtk.map Prod.fst
  tail : f.arr.tail = [] ∨ ∃ k, 0 < k ∧ f.arr.tail = [k]
  some : f.arr.rows ≠ []
  width : ∀ r ∈ f.arr.rows, r.length = f.arr.tail.prod
  kept : ∀ r ∈ f.arr.rows, ∀ v ∈ r, Kept C bin f.dtype v
  zero : f.arr.tail = [2] → Kept C bin f.dtype C.zero

/-- a mesh that VTK can hold: points in two or three dimensions, blocks of cells as a
mesh usually has them, arrays of data with the rows of the blocks -/
structure GoodMesh {V : Type} (C : Codec V) (bin : Bool) (m : Mesh V) : Prop where
  points : GoodField C bin m.points
  dim : m.points.arr.tail = [2] ∨ m.points.arr.tail = [3]
  fixed : ∀ b ∈ m.cells, Vtk.FixedBlock b
  some : m.cells ≠ []
  rows : ∀ b ∈ m.cells, b.rows ≠ []
  separated : Vtk.Separated (m.cells.map fun b => (b.name, b.rows))
  small : ∀ b ∈ m.cells, ∀ r ∈ b.rows, ∀ n ∈ r, n < 2 ^ 24
  names : (m.pointData.map Prod.fst).Nodup ∧ (m.cellData.map Prod.fst).Nodup
  goodNames : ∀ k ∈ m.pointData.map Prod.fst ++ m.cellData.map Prod.fst, GoodName k
  pointData : ∀ p ∈ m.pointData, GoodField C bin p.2
  cellData : ∀ p ∈ m.cellData, ∃ dt tail, (∀ f ∈ p.2, GoodField C bin f ∧ f.dtype = dt ∧ f.arr.tail = tail) ∧
    p.2.map (fun f => f.arr.rows.length) = m.cells.map fun b => b.rows.length

/-- an array as it comes back: pairs are completed by a zero, and rows of one number are
numbers -/
def back {V : Type} (C : Codec V) (a : Arr V) : Arr V :=
  ⟨if a.tail = [2] then [3] else if a.tail = [1] then [] else a.tail,
    if a.tail = [2] then a.rows.map fun r => r ++ [C.zero] else a.rows⟩

/-- a line whose first word is the key (in any case) and whose other words are given -/
def KeyLine (l : Str) (key : String) (args : List Str) : Prop :=
  '\n' ∉ l ∧ Ascii l ∧ ∃ w, words l = w :: args ∧ String.ofList (w.map Char.toUpper) = key

/-- an array of the point data, as a file of structured points gives it: SCALARS (with a
line that names a lookup table) or VECTORS -/
structure Item (V : Type) where
  scalar : Bool
  line : Str
  lookup : Str
  name : Str
  type : Str
  dtype : String
  comps : Nat
  rows : List (List V)

/-- the bytes of an array: its lines, its numbers, a line end -/
def Item.text {V : Type} (C : Codec V) (bin : Bool) (it : Item V) : Str :=
  it.line ++ '\n' :: ((if it.scalar then it.lookup ++ ['\n'] else []) ++ (dump C bin it.dtype [' '] it.rows.flatten ++ ['\n']))

/-- the array is well formed, for `N` points -/
structure GoodItem {V : Type} (C : Codec V) (bin : Bool) (N : Nat) (it : Item V) : Prop where
  dtype : numpyName (lower it.type) = .ok it.dtype
  start : ∀ c ∈ it.line.head?, cspace c = false
  line : if it.scalar then
      (it.comps = 1 ∧ KeyLine it.line "SCALARS" [it.name, it.type]) ∨ KeyLine it.line "SCALARS" [it.name, it.type, num it.comps]
    else KeyLine it.line "VECTORS" [it.name, it.type]
  comps : if it.scalar then 0 < it.comps ∧ it.comps < 5 else it.comps = 3
  lookup : it.scalar = true → ∃ t, KeyLine it.lookup "LOOKUP_TABLE" [t]
  count : it.rows.length = N
  width : ∀ r ∈ it.rows, r.length = it.comps
  kept : ∀ r ∈ it.rows, ∀ v ∈ r, Kept C bin it.dtype v

/-- the lines of a file of structured points before the data -/
structure Head where
  title1 : Str
  title2 : Str
  form : Str
  dataset : Str
  dims : Str
  origin : Str
  spacing : Str
  pointData : Str

/-- the bytes of a file of structured points -/
def Head.text (h : Head) (data : Str) : Str :=
  h.title1 ++ '\n' :: (h.title2 ++ '\n' :: (h.form ++ '\n' :: (h.dataset ++ '\n' :: (h.dims ++ '\n' :: (h.origin ++ '\n' :: (h.spacing ++ '\n' ::
    (h.pointData ++ '\n' :: data)))))))

/-- the lines say: `nx`, `ny` and `nz` points along the axes, from `o` in steps `s` -/
structure GoodHead {V : Type} (C : Codec V) (bin : Bool) (nx ny nz : Nat) (o s : V × V × V) (h : Head) : Prop where
  titles : '\n' ∉ h.title1 ∧ '\n' ∉ h.title2
  form : h.form = (if bin then "BINARY" else "ASCII").toList
  dataset : KeyLine h.dataset "DATASET" ["STRUCTURED_POINTS".toList]
  dims : KeyLine h.dims "DIMENSIONS" [num nx, num ny, num nz]
  origin : ∃ a b c, KeyLine h.origin "ORIGIN" [a, b, c] ∧ C.float a = some o.1 ∧ C.float b = some o.2.1 ∧ C.float c = some o.2.2
  spacing : ∃ a b c, (KeyLine h.spacing "SPACING" [a, b, c] ∨ KeyLine h.spacing "ASPECT_RATIO" [a, b, c]) ∧
    C.float a = some s.1 ∧ C.float b = some s.2.1 ∧ C.float c = some s.2.2
  pointData : KeyLine h.pointData "POINT_DATA" [num (nx * ny * nz)]

end Verif.VtkFile
