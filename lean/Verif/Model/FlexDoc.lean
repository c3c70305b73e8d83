import Verif.Model.HawcAe
import Verif.Model.FastLine
import Verif.Model.FastRead
/-!
# FLEX documentation files

`/repo/weio/flex_doc_file.py`, lines 23-181.  The value of a text of a number is a parameter.  `splitlines` (28) is taken as
splitting at line feeds, `\d` of the pattern (79) as the ASCII digits.
-/
namespace Verif.FlexDoc
open Verif.Py

/-- exceptions -/
inductive Err where
  | wrong      -- WrongFormatError (27)
  | index      -- IndexError (95, 117, 132; an array indexed with a text, 171)
  | value      -- ValueError (98, 101, 135, 138)
  | type       -- TypeError: a number has no items (126, 145, 171)
  | duplicate  -- Exception (167)
deriving DecidableEq, Repr

/-- values: a number, a vector, a matrix, a table -/
inductive Val (F : Type) where
  | num (x : F)
  | vec (xs : List F)
  | mat (rows : List (List F))
  | frame (cols : List Str) (rows : List (List F))
deriving DecidableEq, Repr

/-- what is stored under a key -/
inductive Entry (F : Type) where
  | one (v : Val F)
  | group (g : List (Str × Val F))
deriving DecidableEq, Repr

/-- the object, a dictionary -/
abbrev Doc (F : Type) := List (Str × Entry F)

/-- `d[k]` -/
def look (k : Str) : List (Str × α) → Option α
  | [] => none
  | (a, b) :: r => if a = k then some b else look k r

/-- `d[k] = v` -/
def store (k : Str) (v : α) : List (Str × α) → List (Str × α)
  | [] => [(k, v)]
  | (a, b) :: r => if a = k then (a, v) :: r else (a, b) :: store k v r

/-- `self[key][sub] = v`, with a new dictionary if there is none (122-126, 142-145, 169-171) -/
def setSub (d : Doc F) (key sub : Str) (v : Val F) : Except Err (Doc F) :=
  match look key d with
  | none => .ok (store key (.group [(sub, v)]) d)
  | some (.group g) => .ok (store key (.group (store sub v g)) d)
  | some (.one (.num _)) => .error .type
  | some (.one _) => .error .index

/-- `self[key] = v` if there is no such key (161-167) -/
def setOne (d : Doc F) (key : Str) (v : Val F) : Except Err (Doc F) :=
  match look key d with
  | none => .ok (store key (.one v) d)
  | some _ => .error .duplicate

/-- `[-+]?` of the pattern (79) -/
def sign : Str → Str × Str
  | c :: s => if c = '+' ∨ c = '-' then ([c], s) else ([], c :: s)
  | [] => ([], [])

/-- `(?: \d* \. \d+ ) | (?: \d+ \.? )` (79) -/
def mantissa (s : Str) : Option (Str × Str) :=
  let a := s.takeWhile Char.isDigit
  let r := s.dropWhile Char.isDigit
  match r with
  | '.' :: r' =>
    let b := r'.takeWhile Char.isDigit
    if b ≠ [] then some (a ++ '.' :: b, r'.dropWhile Char.isDigit)
    else if a ≠ [] then some (a ++ ['.'], r')
    else none
  | _ => if a ≠ [] then some (a, r) else none

/-- `(?: [Ee] [+-]? \d+ ) ?` (79) -/
def exponent : Str → Str × Str
  | c :: s =>
    if c = 'e' ∨ c = 'E' then
      let d := (sign s).2.takeWhile Char.isDigit
      if d ≠ [] then (c :: (sign s).1 ++ d, (sign s).2.dropWhile Char.isDigit) else ([], c :: s)
    else ([], c :: s)
  | [] => ([], [])

/-- a match of the pattern at the beginning of a text, and the rest (79-80) -/
def number (s : Str) : Option (Str × Str) :=
  match mantissa (sign s).2 with
  | none => none
  | some (m, r) => some ((sign s).1 ++ m ++ (exponent r).1, (exponent r).2)

/-- `rx.findall` (154); the fuel is the length of the text -/
def findallN : Nat → Str → List Str
  | 0, _ => []
  | _ + 1, [] => []
  | n + 1, c :: s => match number (c :: s) with
    | some (t, r) => t :: findallN n r
    | none => findallN n s

/-- `rx.findall(values)` (154) -/
def findall (s : Str) : List Str := findallN s.length s

/-- `dat` (154-156): the conversion never fails, since the texts are numbers -/
def dat (flt : Str → F) (s : Str) : Val F :=
  match (findall s).map flt with
  | [x] => .num x
  | xs => .vec xs

/-- `ArraysHeader` (30-54) -/
def arraysHeader : List Str :=
  (["#Blade_ShapeFunction_DOF1_Shape", "#Blade_ShapeFunction_DOF2_Shape", "#Blade_ShapeFunction_DOF3_Shape", "#Blade_ShapeFunction_DOF4_Shape",
    "#Blade_ShapeFunction_DOF5_Shape", "#Blade_ShapeFunction_DOF6_Shape", "#Blade_ShapeFunction_DOF7_Shape", "#Blade_ShapeFunction_DOF8_Shape",
    "#Blade_ShapeFunction_DOF9_Shape", "#Blade_ShapeFunction_DOF10_Shape", "#Tower_SectionData", "#Tower_ShapeFunction_DOF1_Shape",
    "#Tower_ShapeFunction_DOF2_Shape", "#Tower_ShapeFunction_DOF3_Shape", "#Tower_ShapeFunction_DOF4_Shape", "#Tower_ShapeFunction_DOF5_Shape",
    "#Tower_ShapeFunction_DOF6_Shape", "#Tower_ShapeFunction_DOF7_Shape", "#Tower_ShapeFunction_DOF8_Shape", "#Foundation_SectionData",
    "#Foundation_ShapeFunction_DOF1_Shape", "#Foundation_ShapeFunction_DOF2_Shape", "#Global_Mode1_Shape"] : List String).map String.toList

/-- `ArraysNoHeader` (56-77); without a comma between its first two texts (57-58) they are one -/
def arraysNoHeader : List Str :=
  (["#Blade_IsolatedMassMatrix#Blade_IsolatedStiffnessMatrix", "#Blade_IsolatedDampingMatrix", "#Foundation_IsolatedMassMatrix",
    "#Foundation_IsolatedStiffnessMatrix", "#Foundation_IsolatedStiffnessMatrixCorrection", "#Foundation_IsolatedDampingMatrix", "#Tower_MassMatrix",
    "#Tower_IsolatedMassMatrix", "#Tower_IsolatedStiffnessMatrix", "#Tower_IsolatedStiffnessMatrixCorrection", "#Tower_IsolatedDampingMatrix",
    "#EVA_MassMatrix", "#EVA_StiffnessMatrix", "#EVA_DampingMatrix", "#EVA_Eigenvectors", "#EVA_Eigenfrequencies", "#EVA_Eigenvalues", "#EVA_Damping",
    "#EVA_LogDec"] : List String).map String.toList

/-- what numbers of tables are (98, 105, 135): `float(v)`, whether `int(v)` exists, the numbers 0, 1, 2 -/
structure Num (F : Type) where
  flt : Str → Option F
  isInt : Str → Bool
  ofNat : Nat → F

/-- a word in a table with a header (98) -/
def cell (N : Num F) (v : Str) : Option F :=
  if v = "Fnd".toList then some (N.ofNat 0) else if v = "Twr".toList then some (N.ofNat 1) else if v = "COG".toList then some (N.ofNat 2) else N.flt v

/-- where the reader is: between sections, at the line below the name of a section (`true`: with a header), or in its rows -/
inductive At (F : Type) where
  | scan
  | head (name : Str) (hdr : Bool)
  | rows (name : Str) (hdr : Bool) (header : Str) (acc : List (List F))

/-- `header` without the number in front (103-108) -/
def headerText (N : Num F) (h : Str) : Str :=
  match words h with
  | w :: ws => if N.isInt w then joinWith [' '] ws else h
  | [] => h

/-- a label with a unit (115) -/
def unitLabel (v : Str) : Str :=
  FastRead.replaceStr "__".toList ['_'] (FastRead.replaceStr "__".toList ['_'] (replaceChar '[' ['_', '['] (replaceChar ' ' ['_'] (strip v)))) ++ [']']

/-- the labels in a header (109-115); `find('[') <= 0`: not found, or in front -/
def headerCols (N : Num F) (h : Str) : List Str :=
  let t := headerText N h
  match find ['['] t with
  | some (_ + 1) =>
    (splitOn ']' (FastRead.replaceStr "n ".toList "n_[-] ".toList (FastRead.replaceStr "rough".toList "rough_[-]".toList t))).dropLast.map unitLabel
  | _ => words t

/-- the names `C0`, `C1`, … (118) -/
def numbered (n : Nat) : List Str := (List.range n).map fun j : Nat => 'C' :: FastLine.showInt (j : Int)

/-- the key and the other words of the name of a section or an entry (120-124, 140-144, 149-151) -/
def keysOf (name : Str) : Str × Str :=
  let ks := splitOn '_' name
  ((ks.headD []).drop 1, joinWith ['_'] ks.tail)

/-- the end of a section (100-126, 137-145): rows of different lengths give ValueError, a table without rows IndexError -/
def finish (N : Num F) (d : Doc F) (name : Str) (hdr : Bool) (header : Str) (acc : List (List F)) : Except Err (Doc F) :=
  let w := (acc.headD []).length
  if acc.all (fun r => r.length = w) then
    if hdr then
      if acc = [] then .error .index
      else
        let cols := headerCols N header
        setSub d (keysOf name).1 (keysOf name).2 (.frame (if cols.length = w then cols else numbered w) acc)
    else setSub d (keysOf name).1 (keysOf name).2 (.mat acc)
  else .error .value

/-- the adjustment of one table (176-179): without the column `C0`, three columns must be left -/
def adjustVal : Val F → Val F
  | .frame cols rows =>
    if "C0".toList ∈ cols ∧ (cols.filter (· ≠ "C0".toList)).length = 3 then
      .frame ["H_[m]".toList, "U_FA_[-]".toList, "U_SS_[]".toList] (rows.map fun r => ((cols.zip r).filter fun p => p.1 ≠ "C0".toList).map Prod.snd)
    else .frame cols rows
  | v => v

/-- the adjustments (175-181) -/
def adjust (d : Doc F) : Doc F :=
  match look "Global".toList d with
  | some (.group g) => match look "Mode1_Shape".toList g with
    | some v => store "Global".toList (.group (store "Mode1_Shape".toList (adjustVal v) g)) d
    | none => d
  | _ => d

/-- a line between sections (84-95, 129-132, 147-181) -/
def step (N : Num F) (flt : Str → F) (d : Doc F) (l : Str) : Except Err (At F × Doc F) :=
  if strip l = [] then .ok (.scan, d)
  else if startsWith l "###".toList then .ok (.scan, d)
  else if l.head? = some '#' then
    let sp := words l
    let name := sp.headD []
    if name ∈ arraysHeader then .ok (.head name true, d)
    else if name ∈ arraysNoHeader then .ok (.head name false, d)
    else
      let key := (keysOf name).1
      let sub := (keysOf name).2
      let v := dat flt (joinWith [' '] sp.tail)
      if strip key = [] then .ok (.scan, adjust d)
      else if sub = [] then (setOne d key v).map fun d' => (.scan, adjust d')
      else (setSub d key sub v).map fun d' => (.scan, adjust d')
  else .ok (.scan, adjust d)

/-- the loop (82-181) -/
def go (N : Num F) (flt : Str → F) : At F → Doc F → List Str → Except Err (Doc F)
  | .scan, d, [] => .ok d
  | .scan, d, l :: r => match step N flt d l with
    | .error e => .error e
    | .ok (s, d') => go N flt s d' r
  | .head _ _, _, [] => .error .index
  | .head name hdr, d, h :: r => go N flt (.rows name hdr h []) d r
  | .rows name hdr h acc, d, [] => finish N d name hdr h acc
  | .rows name hdr h acc, d, l :: r =>
    if l ≠ [] ∧ l.head? ≠ some '#' then
      match (words l).mapM (if hdr then cell N else N.flt) with
      | none => .error .value
      | some row => go N flt (.rows name hdr h (acc ++ [row])) d r
    else match finish N d name hdr h acc with
      | .error e => .error e
      | .ok d' => match step N flt d' l with
        | .error e => .error e
        | .ok (s, d'') => go N flt s d'' r

/-- `_read` (23-181): the first line comes last (28) -/
def read (N : Num F) (flt : Str → F) (s : Str) : Except Err (Doc F) :=
  match HawcAe.readlines s with
  | [] => .error .wrong
  | l :: ls => if startsWith (strip l) "#Program".toList then go N flt .scan [] (ls ++ [strip l]) else .error .wrong

end Verif.FlexDoc
