import Verif.Model.FlexDoc
import Verif.Lemmas.Hs2
import Verif.Lemmas.FastHand
/-!
# What a FLEX documentation file says
-/
namespace Verif.FlexDoc
open Verif.Py Verif.TurbSimTS Verif.Hs2

/-- digits -/
def Digits (d : Str) : Prop := ∀ c ∈ d, c.isDigit = true

/-- a sign, or none -/
def IsSign (s : Str) : Prop := s = [] ∨ s = ['+'] ∨ s = ['-']

/-- digits, perhaps with a point -/
def IsMant (m : Str) : Prop :=
  (∃ a b, m = a ++ '.' :: b ∧ Digits a ∧ Digits b ∧ b ≠ []) ∨ (m ≠ [] ∧ Digits m) ∨ ∃ a, m = a ++ ['.'] ∧ Digits a ∧ a ≠ []

/-- an exponent, or none -/
def IsExp (e : Str) : Prop := e = [] ∨ ∃ c s d, e = c :: (s ++ d) ∧ (c = 'e' ∨ c = 'E') ∧ IsSign s ∧ Digits d ∧ d ≠ []

/-- a decimal number -/
def IsNum (w : Str) : Prop := ∃ s m e, w = s ++ m ++ e ∧ IsSign s ∧ IsMant m ∧ IsExp e

/-- words with the numbers `xs`: each is a decimal number, or has no digit -/
inductive Numbers {F : Type} (flt : Str → F) : List Str → List F → Prop
  | nil : Numbers flt [] []
  | num (w : Str) (ws : List Str) (xs : List F) (hw : IsNum w) (h : Numbers flt ws xs) : Numbers flt (w :: ws) (flt w :: xs)
  | word (w : Str) (ws : List Str) (xs : List F) (hw : ∀ c ∈ w, c.isDigit = false) (h : Numbers flt ws xs) : Numbers flt (w :: ws) xs

/-- the names of the tables: shapes of the blade, the tower and the foundation, sections, the global mode -/
def tableNames : List Str :=
  ((List.range 10).map fun i : Nat => "#Blade_ShapeFunction_DOF".toList ++ FastLine.showInt ((i : Int) + 1) ++ "_Shape".toList) ++
  ((List.range 8).map fun i : Nat => "#Tower_ShapeFunction_DOF".toList ++ FastLine.showInt ((i : Int) + 1) ++ "_Shape".toList) ++
  ((List.range 2).map fun i : Nat => "#Foundation_ShapeFunction_DOF".toList ++ FastLine.showInt ((i : Int) + 1) ++ "_Shape".toList) ++
  ["#Tower_SectionData".toList, "#Foundation_SectionData".toList, "#Global_Mode1_Shape".toList]

/-- the names of matrices that are read as such -/
def matrixNames : List Str :=
  (["Blade_IsolatedDampingMatrix", "Foundation_IsolatedMassMatrix", "Foundation_IsolatedStiffnessMatrix", "Foundation_IsolatedStiffnessMatrixCorrection",
    "Foundation_IsolatedDampingMatrix", "Tower_MassMatrix", "Tower_IsolatedMassMatrix", "Tower_IsolatedStiffnessMatrix", "Tower_IsolatedStiffnessMatrixCorrection",
    "Tower_IsolatedDampingMatrix", "EVA_MassMatrix", "EVA_StiffnessMatrix", "EVA_DampingMatrix", "EVA_Eigenvectors", "EVA_Eigenfrequencies", "EVA_Eigenvalues",
    "EVA_Damping", "EVA_LogDec"] : List String).map fun s => '#' :: s.toList

/-- the name of an entry or a section in a file -/
def nameOf (key : Str) : Option Str → Str
  | none => '#' :: key
  | some s => '#' :: (key ++ '_' :: s)

/-- a key and, perhaps, a second one -/
def GoodKey (key : Str) (sub : Option Str) : Prop := key ≠ [] ∧ '_' ∉ key ∧ ∀ s, sub = some s → s ≠ []

/-- a header with the labels `cols`: words (no unit), or names with units in brackets; a whole number in front is no label -/
def HeaderSays {F : Type} (N : Num F) (h : Str) (cols : List Str) : Prop :=
  ∃ t, ((∃ w ws, words h = w :: ws ∧ N.isInt w = true ∧ t = joinWith [' '] ws) ∨ ((∀ w, (words h).head? = some w → N.isInt w = false) ∧ t = h)) ∧
    (('[' ∉ t ∧ cols = words t) ∨
     (¬ "rough".toList <:+: t ∧ ¬ "n ".toList <:+: t ∧
      ∃ (fs : List (Str × Str × Str × Str)) (tail : Str), fs ≠ [] ∧ ']' ∉ tail ∧ t = fs.flatMap (fun f => f.1 ++ f.2.1 ++ [']']) ++ tail ∧
        (∀ f ∈ fs, Blank f.1 ∧ Trimmed f.2.1 ∧ ']' ∉ f.2.1 ∧ f.2.2.1 ≠ [] ∧ IndField f.2.1 f.2.2.1 f.2.2.2) ∧
        cols = fs.map fun f => under f.2.2.1 ++ "_[".toList ++ under f.2.2.2 ++ "]".toList))

/-- the label of a table with `n` columns: those of the header if there are `n`, or `C0`, `C1`, … -/
def LabelsOf {F : Type} (N : Num F) (h : Str) (n : Nat) (labels : List Str) : Prop :=
  ∃ cols, HeaderSays N h cols ∧ ((cols.length = n ∧ labels = cols) ∨
    (cols.length ≠ n ∧ labels.length = n ∧ ∀ (j : Nat), j < n → labels[j]? = some ('C' :: FastLine.showInt (j : Int))))

/-- a line of a table or a matrix -/
def RowLine (l : Str) : Prop := l ≠ [] ∧ l.head? ≠ some '#'

/-- the value of a word in a table: the names of the parts are 0, 1 and 2 -/
def CellSays {F : Type} (N : Num F) (w : Str) (x : F) : Prop :=
  (w = "Fnd".toList ∧ x = N.ofNat 0) ∨ (w = "Twr".toList ∧ x = N.ofNat 1) ∨ (w = "COG".toList ∧ x = N.ofNat 2) ∨
    (w ≠ "Fnd".toList ∧ w ≠ "Twr".toList ∧ w ≠ "COG".toList ∧ N.flt w = some x)

/-- parts of a file: lines that say nothing, other lines, entries with numbers, other entries, tables and matrices -/
inductive Item (F : Type) where
  | skip (l : Str)
  | stray (l : Str)
  | entry (l key : Str) (sub : Option Str) (v : Val F)
  | other (l key : Str) (sub : Option Str)
  | table (l key sub header : Str) (lines : List Str) (labels : List Str) (rows : List (List F))
  | matrix (l key sub lost : Str) (lines : List Str) (rows : List (List F))

/-- the line has the name `name` in front -/
def Named (l name : Str) (ws : List Str) : Prop := l.head? = some '#' ∧ words l = name :: ws ∧ ¬ "###".toList <+: l

/-- the name is one of an entry -/
def EntryName (key : Str) (sub : Option Str) : Prop :=
  GoodKey key sub ∧ nameOf key sub ∉ tableNames ∧ nameOf key sub ∉ matrixNames ∧ '#' ∉ key ++ sub.getD []

/-- the parts are as they should be -/
def Item.Good {F : Type} (N : Num F) (flt : Str → F) : Item F → Prop
  | .skip l => Blank l ∨ "###".toList <+: l
  | .stray l => ¬ Blank l ∧ l.head? ≠ some '#'
  | .entry l key sub v => EntryName key sub ∧ ∃ ws xs, Named l (nameOf key sub) ws ∧ Numbers flt ws xs ∧ (∀ x, xs = [x] → v = .num x) ∧ (xs.length ≠ 1 → v = .vec xs)
  | .other l key sub => EntryName key sub ∧ ∃ ws, Named l (nameOf key sub) ws
  | .table l key sub h lines labels rows => GoodKey key (some sub) ∧ nameOf key (some sub) ∈ tableNames ∧ (∃ ws, Named l (nameOf key (some sub)) ws) ∧
      (∀ r ∈ lines, RowLine r) ∧ List.Forall₂ (fun r row => List.Forall₂ (CellSays N) (words r) row) lines rows ∧ rows ≠ [] ∧
      (∀ row ∈ rows, row.length = (rows.headD []).length) ∧ LabelsOf N h (rows.headD []).length labels
  | .matrix l key sub _ lines rows => GoodKey key (some sub) ∧ nameOf key (some sub) ∈ matrixNames ∧ (∃ ws, Named l (nameOf key (some sub)) ws) ∧
      (∀ r ∈ lines, RowLine r) ∧ List.Forall₂ (fun r row => (words r).mapM N.flt = some row) lines rows ∧
      (∀ row ∈ rows, row.length = (rows.headD []).length)

/-- the lines of a part -/
def Item.text {F : Type} : Item F → List Str
  | .skip l => [l]
  | .stray l => [l]
  | .entry l _ _ _ => [l]
  | .other l _ _ => [l]
  | .table l _ _ h lines _ _ => l :: h :: lines
  | .matrix l _ _ lost lines _ => l :: lost :: lines

/-- what is stored: keys and value; that of another entry is not said -/
def Item.says {F : Type} : Item F → List (Str × Option Str × Val F)
  | .skip _ => []
  | .stray _ => []
  | .entry _ key sub v => [(key, sub, v)]
  | .other _ _ _ => []
  | .table _ key sub _ _ labels rows => [(key, some sub, .frame labels rows)]
  | .matrix _ key sub _ _ rows => [(key, some sub, .mat rows)]

/-- the keys of a part -/
def Item.places {F : Type} : Item F → List (Str × Option Str)
  | .skip _ => []
  | .stray _ => []
  | .entry _ key sub _ => [(key, sub)]
  | .other _ key sub => [(key, sub)]
  | .table _ key sub _ _ _ _ => [(key, some sub)]
  | .matrix _ key sub _ _ _ => [(key, some sub)]

/-- behind a table or a matrix there is an empty line, or one with `#` in front -/
def Closed {F : Type} : List (Item F) → Prop
  | [] => True
  | a :: r => (match a, r with
    | .table .., b :: _ => (∃ l, b.text.head? = some l ∧ ¬ RowLine l)
    | .matrix .., b :: _ => (∃ l, b.text.head? = some l ∧ ¬ RowLine l)
    | _, _ => True) ∧ Closed r

/-- a value in the object -/
def get {F : Type} (d : Doc F) (key : Str) (sub : Option Str) : Option (Val F) :=
  match sub with
  | none => (d.find? fun p => p.1 = key).bind fun p => match p.2 with | .one v => some v | .group _ => none
  | some s => (d.find? fun p => p.1 = key).bind fun p => match p.2 with | .one _ => none | .group g => (g.find? fun q => q.1 = s).map Prod.snd

/-- different places -/
def Distinct (a b : Str × Option Str) : Prop := a.1 ≠ b.1 ∨ ∃ s t, a.2 = some s ∧ b.2 = some t ∧ s ≠ t

/-- a file: the first line, which is the entry of the program, and parts at different places -/
structure IsDoc {F : Type} (N : Num F) (flt : Str → F) (s first : Str) (prog : Item F) (its : List (Item F)) : Prop where
  lines : HasLines s (first :: its.flatMap Item.text)
  program : "#Program".toList <+: strip first
  text : prog.text = [strip first]
  good : ∀ it ∈ its ++ [prog], it.Good N flt
  closed : Closed its
  distinct : ((its ++ [prog]).flatMap Item.places).Pairwise Distinct

end Verif.FlexDoc
