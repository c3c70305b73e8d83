import Verif.Spec.FastLine
import Verif.Model.FastRead
import Verif.Props.FastFile
/-! Specification side of C82: which files of tables, channel lists and file lists are considered. -/
namespace Verif.FastRead
open Verif.Py Verif.FastDict Verif.FastLine Verif.FastTable

/-- column names: at least two words without `[`, `(`, `!`, `#` -/
structure NamesOK (names : List Str) : Prop where
  two : 2 ≤ names.length
  word : ∀ n ∈ names, IsWord n
  chars : ∀ n ∈ names, '[' ∉ n ∧ '(' ∉ n ∧ '!' ∉ n ∧ '#' ∉ n

/-- a unit: a text with single blanks between parentheses -/
def UnitOK (u : Str) : Prop :=
  ∃ v, u = '(' :: v ++ [')'] ∧ v = joinWith [' '] (words v) ∧
    '(' ∉ v ∧ ')' ∉ v ∧ '!' ∉ v ∧ '#' ∉ v

/-- the text of a number: blanks, then digits, signs, `.` and `e`, read back as the number -/
def NumTextOK (N : Num) (t : Str) (x : N.F) : Prop :=
  ∃ k w, t = List.replicate k ' ' ++ w ∧ w ≠ [] ∧
    (∀ c ∈ w, c.isDigit = true ∨ c = '+' ∨ c = '-' ∨ c = '.' ∨ c = 'e' ∨ c = 'E') ∧
    N.parse (lower w) = some x

/-- the first header line of a table is recognised: its first word is a text, its second a label -/
structure HeadOK (N : Num) (names : List Str) : Prop where
  good : NamesOK names
  value : ∀ c, names[0]? = some c → StrOK N.toPyFloat c
  label : ∀ c, names[1]? = some c → LabelOK N.toPyFloat c
  notEnd : ∀ c, names[0]? = some c → startsWith (lower c) "end".toList = false
  special : ∀ c, names[1]? = some c → lower c ≠ "numcoords".toList ∧ lower c ≠ "re".toList
  noSection : isSection (headerText names) = false

/-- one unit per column on a second line, or no line of units -/
def UnitsOK (k : Kind) (names : List Str) (units : Option (List Str)) : Prop :=
  (k.nHeaders = 2 ∧ ∃ us, units = some us ∧ us.length = names.length ∧ ∀ u ∈ us, UnitOK u) ∨
  (k.nHeaders = 1 ∧ units = none)

/-- rows of numbers that are printed without loss -/
def NumRowsOK (N : Num) (w : Nat) (rows : List (List N.F)) : Prop :=
  ∀ r ∈ rows, r.length = w ∧ ∀ x ∈ r, ∃ t, N.cell x = some t ∧ NumTextOK N t x

/-- a word of a `mix` table -/
def WordOK (s : Str) : Prop := IsWord s ∧ '!' ∉ s ∧ '#' ∉ s

/-- rows of a `mix` table: all floats, or all words of which one is not a float; no row starts
with `---` -/
def MixRowsOK (N : Num) (w : Nat) (rows : List (List (Cell N.F))) : Prop :=
  (∀ r ∈ rows, r.length = w) ∧
  ((∀ r ∈ rows, ∀ c ∈ r, ∃ x, c = .num x ∧ WordOK (N.repr x)) ∨
   ((∀ r ∈ rows, ∀ c ∈ r, ∃ s, c = .txt s ∧ WordOK s) ∧ (∃ r ∈ rows, ∃ s, Cell.txt s ∈ r ∧ N.parse s = none))) ∧
  ∀ r ∈ rows, ∀ c, r[0]? = some c → startsWith (showCell N c) "---".toList = false

/-- a table of `m` lines of the kind `k` -/
structure TableOK (N : Num) (k : Kind) (m : Nat) (d : Item N.F) : Prop where
  label : d.label = k.name
  comment : d.isComment = false
  head : ∃ names, d.names = some names ∧ HeadOK N names ∧ UnitsOK k names d.units ∧
    ((k.mix = false ∧ d.tabType = .numHeader ∧ ∃ rows, d.value = .num rows ∧ rows.length = m ∧
        NumRowsOK N names.length rows) ∨
     (k.mix = true ∧ d.tabType = .mixHeader ∧ ∃ rows, d.value = .mix rows ∧ rows.length = m ∧
        MixRowsOK N names.length rows))

/-- the entries read before say that the table has `m` lines -/
def DimIs {F : Type} (before : List (Item F)) (k : Kind) (m : Nat) : Prop :=
  match k.dim with
  | .const n => n = m
  | .var name => ∃ v, lookup before name = some v ∧ v = .plain (.scalar (.int m))

/-- the value of an entry is not one of the words that open a table -/
def NotHead {F : Type} (v : EVal F) : Prop := ∀ s, v = .scalar (.str s) → lower s ∉ tabValues

/-- an entry that is not a table: a comment or a key, as for C12, and in addition the keys of
airfoil files: `re` in a file with one table, `NumCoords` without coordinates -/
def PlainOK (N : Num) (before : List (Item N.F)) (d : Item N.F) : Prop :=
  ∃ e : Entry (EVal N.F), d = Item.ofEntry e ∧ EntryOK N.toPyFloat e ∧
    (∀ c ∈ entryText N.toPyFloat e, isLineBreak c = false) ∧
    isSection (entryText N.toPyFloat e) = false ∧
    (isTable N.toPyFloat e = false ∨
     (e.label = "re".toList ∧ NotHead e.value ∧
        ∃ m, lookup before "NumTabs".toList = some (.plain (.scalar (.int m))) ∧ m ≤ 1) ∨
     (lower e.label = "numcoords".toList ∧ NotHead e.value ∧
        ((∃ m, e.value = .scalar (.int m) ∧ m ≤ 0) ∨ ∃ s, e.value = .scalar (.str s))))

/-- a key entry that opens a table: `NumAlf`, `GuyanDampSize` -/
def KeyOK (N : Num) (key : String) (d : Item N.F) : Prop :=
  ∃ e : Entry (EVal N.F), d = Item.ofEntry e ∧ e.isComment = false ∧ EntryOK N.toPyFloat e ∧
    (∀ c ∈ entryText N.toPyFloat e, isLineBreak c = false) ∧
    isSection (entryText N.toPyFloat e) = false ∧ NotHead e.value ∧ lower e.label = key.toList

/-- the table of a polar, `m` lines -/
structure PolarOK (N : Num) (m : Nat) (d : Item N.F) : Prop where
  label : d.label = "AFCoeff".toList
  comment : d.isComment = false
  tab : d.tabType = .numHeaderCom
  head : ∃ names us rows, d.names = some names ∧ d.units = some us ∧ d.value = .num rows ∧
    NamesOK names ∧ us.length = names.length ∧ (∀ u ∈ us, UnitOK u) ∧ rows.length = m ∧ 0 < m ∧
    ∀ r ∈ rows, r.length = names.length ∧ ∀ x ∈ r, NumTextOK N (N.e15 x) x

/-- the damping matrix of SubDyn: six lines of numbers -/
structure GuyanOK (N : Num) (d : Item N.F) : Prop where
  label : d.label = "GuyanDampMatrix".toList
  comment : d.isComment = false
  tab : d.tabType = .numHeader
  plain : d.names = none ∧ d.units = none
  rows : ∃ rows w, d.value = .num rows ∧ rows.length = 6 ∧ 0 < w ∧ NumRowsOK N w rows ∧
    ∀ r t, rows[0]? = some r → r.mapM N.cell = some t → 0 < N.numCount (joinWith ['\t'] t)

/-- a list of at least two files -/
structure FilesOK (N : Num) (k : Str × Str × Str) (before : List (Item N.F)) (d : Item N.F) : Prop where
  kind : k ∈ filKinds
  label : d.label = k.2.2
  float : N.parse d.label = none
  comment : d.isComment = false
  tab : d.tabType = .fil
  plain : d.names = none ∧ d.units = none
  descr : d.descr = joinWith [' '] (words d.descr)
  files : ∃ f fs, d.value = .fil (f :: fs) ∧ fs ≠ [] ∧ (∀ w ∈ f :: fs, IsWord w) ∧ StrOK N.toPyFloat f ∧
    startsWith (lower f) "end".toList = false ∧ lower f ∉ tabValues ∧
    isSection (f ++ [' '] ++ d.label ++ [' '] ++ d.descr) = false ∧
    lookup before k.2.1 = some (.plain (.scalar (.int (fs.length + 1))))

/-- the two entries that end a list of channels -/
def endEntries (F : Type) : List (Item F) :=
  [{ label := "of".toList, value := .plain (.scalar (.str "END".toList)), isComment := true,
     descr := ("input file (the word \"END\" must appear in the first 3 columns of this last OutList line)".toList) },
   Item.comment (List.replicate 87 '-')]

/-- a list of channels: its label is a word, its description starts with a word and announces the
channels -/
structure ChannelsOK (N : Num) (d : Item N.F) : Prop where
  float : N.parse "END".toList = none ∧ N.parse "of".toList = none
  comment : d.isComment = false
  tab : d.tabType = .fil
  plain : d.names = none ∧ d.units = none
  label : d.label ≠ [] ∧ ∀ c ∈ d.label, isWordChar c = true
  descr : ∃ c r, d.descr = c :: r ∧ isWordChar c = true
  breaks : ∀ c ∈ d.descr, isLineBreak c = false
  opens : isOutSection ([' '] ++ d.label ++ [' '] ++ d.descr) = true
  chans : ∃ cs, d.value = .fil ([] :: cs) ∧ cs ≠ [] ∧ cs.length ≤ 200 ∧ (∀ c ∈ cs, ¬ IsEnd c) ∧
    ∀ l ∈ cs, ∀ c ∈ l, isLineBreak c = false

/-- the list of channels of SubDyn, stored as comments after the comment that announces it -/
structure SubListOK (N : Num) (d : Item N.F) (chans : List Str) : Prop where
  float : N.parse "END".toList = none ∧ N.parse "of".toList = none
  head : ∃ line, d = Item.comment line ∧ IsCommentLine line ∧ (∀ c ∈ line, isLineBreak c = false) ∧
    isOutSection line = false ∧ isSDSection line = true
  chans : chans.length ≤ 200 ∧ (∀ c ∈ chans, ¬ IsEnd c) ∧ ∀ l ∈ chans, ∀ c ∈ l, isLineBreak c = false

/-- a term of a matrix that is printed without loss -/
def TermOK (N : Num) (x : N.F) : Prop :=
  ∃ k w, N.e24 x = List.replicate k ' ' ++ w ∧ IsWord w ∧ N.parse w = some x

/-- a BeamDyn section: its position and 36 + 36 terms are printed without loss -/
def SectionOK (N : Num) (x : N.F) (K M : List N.F) : Prop :=
  N.parse (N.f6 x) = some x ∧ (∀ c ∈ N.f6 x, isLineBreak c = false) ∧
  K.length = 36 ∧ M.length = 36 ∧ (∀ y ∈ K, TermOK N y) ∧ ∀ y ∈ M, TermOK N y

/-- the sections of a BeamDyn blade after the comment that announces them -/
structure BeamOK (N : Num) (before : List (Item N.F)) (d0 d : Item N.F) : Prop where
  head : ∃ line, d0 = Item.comment line ∧ IsCommentLine line ∧ (∀ c ∈ line, isLineBreak c = false) ∧
    isOutSection line = false ∧ isSDSection line = false ∧
    hasInside line "ADDITIONAL STIFFNESS".toList = false ∧ hasInside line "DISTRIBUTED PROPERTIES".toList = true
  label : d.label = "BeamProperties".toList
  comment : d.isComment = false
  tab : d.tabType = .beamdyn
  plain : d.names = none ∧ d.units = none
  secs : ∃ secs, d.value = .beam secs ∧ secs ≠ [] ∧ (∀ s ∈ secs, SectionOK N s.1 s.2.1 s.2.2) ∧
    lookup before "station_total".toList = some (.plain (.scalar (.int secs.length)))

/-- the entry opens the list of channels -/
def opens {F : Type} (d : Item F) : Bool :=
  (d.tabType == .fil && d.label != "AFNames".toList && d.label != "FoilNm".toList) ||
  (d.isComment && match d.value with | .plain (.scalar (.str t)) => isSDSection t | _ => false)

/-- the number of comments before the list of channels -/
def comments {F : Type} (data : List (Item F)) : Nat :=
  (data.takeWhile (fun d => !opens d)).countP (·.isComment)

/-- the file ends with the sections of a blade -/
def EndsBeam {F : Type} (data : List (Item F)) : Prop :=
  ∃ d, data.getLast? = some d ∧ d.tabType = .beamdyn

/-- `d'` is what was saved as `d`: same label, value, kind, columns and units, and the same text
when saved again -/
structure Same (N : Num) (d d' : Item N.F) : Prop where
  label : d'.label = d.label
  value : d'.value = d.value
  comment : d'.isComment = d.isComment
  tab : d'.tabType = d.tabType
  names : d'.names = d.names
  units : d'.units = d.units
  text : itemText N d' = itemText N d

/-- `Saved N before vals labs data`: the entries `data` that follow the entries `before` can be
saved; `vals` and `labs` are the kinds of tables that can still come, each one once. -/
inductive Saved (N : Num) : List (Item N.F) → List Kind → List Kind → List (Item N.F) → Prop
  | nil (b v l) : Saved N b v l []
  | plain (b v l d ds) : PlainOK N b d → Saved N (b ++ [d]) v l ds → Saved N b v l (d :: ds)
  /-- a table recognised by its first word -/
  | valTable (b v l k m d ds) : TableOK N k m d → DimIs b k m →
      v.find? (fun q => q.detect == lower (((d.names.getD [])[0]?).getD [])) = some k →
      Saved N (b ++ [d]) (v.erase k) l ds → Saved N b v l (d :: ds)
  /-- a table recognised by its second word -/
  | labTable (b v l k m d ds) : TableOK N k m d → DimIs b k m → k.nOffset = 0 →
      k.detect ≠ "numalf".toList → lower (((d.names.getD [])[0]?).getD []) ∉ tabValues →
      l.find? (fun q => q.detect == lower (((d.names.getD [])[1]?).getD [])) = some k →
      Saved N (b ++ [d]) v (l.erase k) ds → Saved N b v l (d :: ds)
  /-- `NumAlf` and the coefficients of the airfoil -/
  | polar (b v l m d0 d ds) : KeyOK N "numalf" d0 → PolarOK N m d →
      lookup (b ++ [d0]) "NumAlf".toList = some (.plain (.scalar (.int m))) →
      mkKind "numalf" "NumAlf" "AFCoeff" 2 0 false ∈ l →
      Saved N (b ++ [d0, d]) v l ds → Saved N b v l (d0 :: d :: ds)
  /-- `GuyanDampSize` and the damping matrix -/
  | guyan (b v l k d0 d ds) : KeyOK N "guyandampsize" d0 → GuyanOK N d →
      l.find? (fun q => q.detect == "guyandampsize".toList) = some k →
      Saved N (b ++ [d0, d]) v (l.erase k) ds → Saved N b v l (d0 :: d :: ds)
  | files (b v l k d ds) : FilesOK N k b d → Saved N (b ++ [d]) v l ds → Saved N b v l (d :: ds)
  | channels (b v l d) : ChannelsOK N d → Saved N b v l (d :: endEntries N.F)
  | subdyn (b v l d chans) : SubListOK N d chans → Saved N b v l (d :: (chans.map Item.comment ++ endEntries N.F))
  | beam (b v l d0 d) : BeamOK N b d0 d → Saved N b v l [d0, d]

end Verif.FastRead
