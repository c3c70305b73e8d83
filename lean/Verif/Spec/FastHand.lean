import Verif.Spec.FastText
import Verif.Spec.FastRead
import Mathlib.Data.List.Forall2
/-!
# Specification: an OpenFAST input file as a user writes it

Which items are expected from the lines of a hand-written file: keys with their values, comments,
tables of the kinds OpenFAST documents, polars, lists of files, lists of channels.  The kinds of tables
are listed here once more, independently of the reader.
-/
namespace Verif.FastRead
open Verif.Py Verif.FastDict Verif.FastLine

/-- what a user sees of an item -/
structure Seen (F : Type) where
  label : Str
  value : FVal F
  comment : Bool := false
  names : Option (List Str) := none
  units : Option (List Str) := none

/-- what is seen of an item -/
def Item.seen {F : Type} (d : Item F) : Seen F := ⟨d.label, d.value, d.isComment, d.names, d.units⟩

/-- a comment as it is seen -/
def Seen.comm (F : Type) (l : Str) : Seen F := { label := [], value := .plain (.scalar (.str l)), comment := true }

/-- the value of the first item with this label, whatever the case -/
def valueOf {F : Type} (b : List (Seen F)) (key : Str) : Option (FVal F) :=
  (b.find? fun d => decide (lower d.label = lower key)).map (·.value)

/-! ### values -/

/-- the text of an integer: a sign or not, and digits -/
def IntText (t : Str) : Prop :=
  ∃ sg ds, t = sg ++ ds ∧ sg ∈ [[], ['+'], ['-']] ∧ ds ≠ [] ∧ ∀ c ∈ ds, c.isDigit = true

/-- the value of a text -/
inductive Means (N : Num) : Str → Val N.F → Prop
  | nat (n : Nat) : Means N (Nat.toDigits 10 n) (.int n)
  | plus (n : Nat) : Means N ('+' :: Nat.toDigits 10 n) (.int n)
  | minus (n : Nat) : Means N ('-' :: Nat.toDigits 10 n) (.int (-n))
  | flt (t : Str) (x : N.F) : ¬ IntText t → N.parse t = some x → Means N t (.flt x)
  | yes (t : Str) : N.parse t = none → lower t ∈ ["true".toList, "t".toList] → Means N t (.bool true)
  | no (t : Str) : N.parse t = none → lower t ∈ ["false".toList, "f".toList] → Means N t (.bool false)
  | str (t : Str) : N.parse t = none → lower t ∉ ["true".toList, "t".toList, "false".toList, "f".toList] →
      Means N t (.str t)

/-- a remark between value and label: `!…:` -/
def Tag (w : Str) : Prop := w.head? = some '!' ∧ w.getLast? = some ':'

/-- words between a value and its label that are not part of them: numbers, and remarks `!…:` with the
word after them -/
inductive Skip (N : Num) : List Str → Prop
  | nil : Skip N []
  | num (w ms) : (N.parse w).isSome = true → ¬ Tag w → Skip N ms → Skip N (w :: ms)
  | tag (w x ms) : Tag w → Skip N ms → Skip N (w :: x :: ms)

/-- words `t1,` `t2,` … `tn` -/
def withCommas : List Str → List Str
  | [] => []
  | [t] => [t]
  | t :: ts => (t ++ [',']) :: withCommas ts

/-- an item of a list: a number or a logical -/
def ListText (N : Num) (t : Str) (v : Val N.F) : Prop :=
  IsWord t ∧ ',' ∉ t ∧ Means N t v ∧ ∀ s, v ≠ .str s

/-! ### lines -/

/-- words that start a section when they stand in a line, not at its beginning -/
def sections : List String :=
  ["ADDITIONAL OUTPUTS", "MESH-BASED OUTPUTS", "OUTPUT CHANNELS", "SSOUTLIST", "SDOUTLIST", "ADDITIONAL STIFFNESS",
   "DISTRIBUTED PROPERTIES"]

/-- the line starts no section -/
def NoSection (l : Str) : Prop := ∀ s ∈ sections, ¬ s.toList <:+: upper l

/-- the line is no `end… of …` -/
def NotEnd (l : Str) : Prop := ∀ a b r, words l = a :: b :: r → "end".toList <+: lower a → b ≠ "of".toList

/-- the label opens a table or a section of an airfoil file -/
def reserved : List String :=
  ["numalf", "f_x", "membercd1", "mjointid1", "noutloc", "noutcnt", "propd", "diam", "type", "linetype",
   "guyandampsize", "younge", "ea", "matdens", "gridname", "foilnm", "afnames", "numcoords", "re"]

/-- a text that opens a table -/
def openers : List String :=
  ["htfract", "twrelev", "blfract", "genspd_tlu", "blspn", "wndspeed", "hvcoefid", "axcoefid", "jointid", "dpth",
   "fillnumm", "mgdpth", "simplcd", "rnodes", "kp_xr", "mu1", "twrhtfr", "twrre", "wt_x", "rjointid", "ijointid",
   "cosmid", "cmjointid"]

/-- a label: a word of letters, digits, quotes, parentheses, `_`, `-` that is neither a number nor a
logical -/
def LabelText (N : Num) (lab : Str) : Prop :=
  lab ≠ [] ∧ (∀ c ∈ lab, c.isAlphanum = true ∨ c ∈ ['"', '\'', '_', '(', ')', '-']) ∧ N.parse lab = none ∧
  lower lab ∉ ["true".toList, "t".toList, "false".toList, "f".toList]

/-- the value opens no table -/
def Plain {F : Type} (v : Val F) : Prop := ∀ s, v = .str s → ∀ k ∈ openers, lower s ≠ k.toList

/-- the item `kp_total` of BeamDyn was read -/
def KpSeen {F : Type} (b : List (Seen F)) : Prop := ∃ d ∈ b, lower d.label = "kp_total".toList

/-- a line `value label description`, with possibly words to skip before the label -/
def KeyLine (N : Num) (b : List (Seen N.F)) (l lab : Str) (v : Val N.F) : Prop :=
  ∃ t ws mid rest, words l = ws ++ (mid ++ lab :: rest) ∧ TextOK t ws ∧ Means N t v ∧ Skip N mid ∧
    (mid = [] ∨ ',' ∉ l) ∧ NotEnd l ∧ NoSection l ∧ LabelText N lab ∧
    (KpSeen b → IntText t → ∀ w, mid.head? = some w → ¬ IntText w)

/-- a line `1, 2, 3 label description` -/
def ListLine (N : Num) (l lab : Str) (vs : List (Val N.F)) : Prop :=
  ∃ ts rest, words l = withCommas ts ++ lab :: rest ∧ 2 ≤ ts.length ∧ List.Forall₂ (ListText N) ts vs ∧
    NoSection l ∧ LabelText N lab ∧
    ∀ t, ts.head? = some t → t.length < 30 ∧ t.head? ≠ some '#' ∧ t.head? ≠ some '!' ∧ ¬ "--".toList <+: t ∧
      ¬ "==".toList <+: t ∧ t.head? ≠ some 'e' ∧ t.head? ≠ some 'E'

/-- a line `1 4 label`: two integers after `kp_total` -/
def PairLine (N : Num) (l a c lab : Str) : Prop :=
  ∃ mid rest, words l = a :: c :: (mid ++ lab :: rest) ∧ IntText a ∧ IntText c ∧ Skip N mid ∧ ',' ∉ l ∧ NoSection l ∧
    LabelText N lab

/-- a line without label -/
def LoneLine (N : Num) (l : Str) : Prop :=
  ∃ t ws mid, words l = ws ++ mid ∧ TextOK t ws ∧ Skip N mid ∧ ',' ∉ l ∧ NoSection l

/-! ### tables -/

/-- how the number of rows is given -/
inductive Rows where
  | key (k : String)
  | always (n : Nat)
deriving DecidableEq, Repr

/-- a kind of table: the word that opens it, the number of rows, the name of the table, the number of
header lines, lines skipped after them, and whether cells can be words -/
structure Doc where
  word : String
  rows : Rows
  name : String
  heads : Nat := 2
  skip : Nat := 0
  mix : Bool := false
deriving DecidableEq, Repr

/-- tables opened by the first word of their header -/
def docVals : List Doc :=
  [{ word := "htfract", rows := .key "NTwInpSt", name := "TowProp" },
   { word := "twrelev", rows := .key "NumTwrNds", name := "TowProp" },
   { word := "blfract", rows := .key "NBlInpSt", name := "BldProp" },
   { word := "genspd_tlu", rows := .key "DLL_NumTrq", name := "DLLProp" },
   { word := "blspn", rows := .key "NumBlNds", name := "BldAeroNodes" },
   { word := "wndspeed", rows := .key "NumCases", name := "Cases" },
   { word := "hvcoefid", rows := .key "NHvCoef", name := "HvCoefs" },
   { word := "axcoefid", rows := .key "NAxCoef", name := "AxCoefs" },
   { word := "jointid", rows := .key "NJoints", name := "Joints" },
   { word := "dpth", rows := .key "NCoefDpth", name := "DpthProp" },
   { word := "fillnumm", rows := .key "NFillGroups", name := "FillGroups" },
   { word := "mgdpth", rows := .key "NMGDepths", name := "MGProp" },
   { word := "simplcd", rows := .always 1, name := "SmplProp" },
   { word := "rnodes", rows := .key "BldNodes", name := "BldAeroNodes", heads := 1, mix := true },
   { word := "kp_xr", rows := .key "kp_total", name := "MemberGeom" },
   { word := "mu1", rows := .always 1, name := "DampingCoeffs" },
   { word := "twrhtfr", rows := .key "NTwrHt", name := "TowerProp", heads := 1 },
   { word := "twrre", rows := .key "NTwrRe", name := "TowerRe", heads := 1 },
   { word := "wt_x", rows := .key "NumTurbines", name := "WindTurbines", mix := true },
   { word := "rjointid", rows := .key "NReact", name := "BaseJoints", mix := true },
   { word := "ijointid", rows := .key "NInterf", name := "InterfaceJoints" },
   { word := "cosmid", rows := .key "NCOSMs", name := "MemberCosineMatrix" },
   { word := "cmjointid", rows := .key "NCmass", name := "ConcentratedMasses" }]

/-- tables opened by the second word of their header; the first one and `guyandampsize` follow a key -/
def docLabs : List Doc :=
  [{ word := "numalf", rows := .key "NumAlf", name := "AFCoeff" },
   { word := "f_x", rows := .key "NKInpSt", name := "TMDspProp" },
   { word := "membercd1", rows := .key "NCoefMembers", name := "MemberProp" },
   { word := "mjointid1", rows := .key "NMembers", name := "Members", mix := true },
   { word := "noutloc", rows := .key "NMOutputs", name := "MemberOuts" },
   { word := "noutcnt", rows := .key "NMOutputs", name := "MemberOuts" },
   { word := "propd", rows := .key "NPropSets", name := "SectionProp" },
   { word := "diam", rows := .key "NTypes", name := "LineTypes", mix := true },
   { word := "type", rows := .key "NConnects", name := "ConnectionProp", mix := true },
   { word := "linetype", rows := .key "NLines", name := "LineProp", mix := true },
   { word := "guyandampsize", rows := .always 6, name := "GuyanDampMatrix", heads := 0, skip := 1 },
   { word := "younge", rows := .key "NPropSets", name := "BeamProp" },
   { word := "younge", rows := .key "NXPropSets", name := "BeamPropX" },
   { word := "ea", rows := .key "NCablePropSets", name := "CableProp" },
   { word := "matdens", rows := .key "NRigidPropSets", name := "RigidProp" },
   { word := "gridname", rows := .key "nGridOut", name := "GridOutputs", heads := 0, skip := 2, mix := true }]

/-- the items read before say that there are `m` rows -/
def RowsAre {F : Type} (b : List (Seen F)) (r : Rows) (m : Nat) : Prop :=
  match r with
  | .always n => n = m
  | .key k => ∃ v, valueOf b k.toList = some v ∧ v = .plain (.scalar (.int m))

/-- value, names and units of a table written as `heads` and `lines` -/
inductive TableText (N : Num) (heads lines : List Str) : Bool → FVal N.F → List Str → Option (List Str) → Prop
  | num (names : List Str) (us : Option (List Str)) (w : Nat) (toks : List (List Str)) (rows : List (List N.F)) :
      names ≠ [] → Heads names us heads → List.Forall₂ RowText toks lines →
      List.Forall₂ (fun ts r => r.length = w ∧ List.Forall₂ (Stands N) (ts.take w) r) toks rows →
      (∀ ts, toks.head? = some ts → ts.length = w) → (toks = [] → w = names.length) →
      (w ≤ names.length ∨ EndsNodeCnt names) → (us = none → EndsNodeCnt names → w = names.length) →
      TableText N heads lines false (.num rows) (padNames w names) (us.map fun u => (padNames w u).map inParens)
  | more (names : List Str) (us : Option (List Str)) (w : Nat) (toks : List (List Str)) (rows : List (List N.F)) :
      names ≠ [] → Heads names us heads → List.Forall₂ RowText toks lines →
      List.Forall₂ (fun ts r => r.length = w ∧ List.Forall₂ (Stands N) (ts.take w) r) toks rows →
      (∀ ts, toks.head? = some ts → ts.length = w) → (toks = [] → w = names.length) →
      names.length < w → ¬ EndsNodeCnt names →
      TableText N heads lines false (.num rows) names (us.map (·.map inParens))
  | mixNum (names : List Str) (us : Option (List Str)) (w : Nat) (toks : List (List Str)) (val : Str → N.F) :
      names ≠ [] → Heads names us heads → List.Forall₂ RowText toks lines → (∀ l ∈ lines, ¬ "---".toList <+: l) →
      (∀ ts, toks.head? = some ts → ts.length = w) → (toks = [] → w = names.length) → (us = none → w ≤ names.length) →
      (∀ ts ∈ toks, ∀ t ∈ ts.take w, N.parse t = some (val t)) →
      TableText N heads lines true
        (.mix (toks.map fun ts => (ts.take w).map (fun t => .num (val t)) ++ List.replicate (w - ts.length) (.num N.zero)))
        (padNames w names) (us.map fun u => (padNames w u).map inParens)
  | mixTxt (names : List Str) (us : Option (List Str)) (w : Nat) (toks : List (List Str)) :
      names ≠ [] → Heads names us heads → List.Forall₂ RowText toks lines → (∀ l ∈ lines, ¬ "---".toList <+: l) →
      (∀ ts, toks.head? = some ts → ts.length = w) → (toks = [] → w = names.length) → (us = none → w ≤ names.length) →
      (∃ ts ∈ toks, ∃ t ∈ ts.take w, N.parse t = none) →
      TableText N heads lines true
        (.mix (toks.map fun ts => (ts.take w).map .txt ++ List.replicate (w - ts.length) (.num N.zero)))
        (padNames w names) (us.map fun u => (padNames w u).map inParens)

/-- the first header line of a table: its first two words -/
structure HeadLine (N : Num) (l x y : Str) : Prop where
  words : ∃ r, words l = x :: y :: r
  text : TextOK x [x]
  value : Means N x (.str x)
  label : LabelOK N.toPyFloat y
  other : lower y ≠ "numcoords".toList ∧ lower y ≠ "re".toList ∧ lower y ≠ "kp_total".toList
  notEnd : NotEnd l
  noSection : NoSection l

/-! ### files -/

/-- the lists of files: key, number of files -/
def docFiles : List (String × String) := [("FoilNm", "NumFoil"), ("AFNames", "NumAFfiles")]

/-- the line opens a list of channels; its label is its first word -/
def ChannelHead (l lab : Str) : Prop :=
  (∃ s ∈ ["ADDITIONAL OUTPUTS", "MESH-BASED OUTPUTS", "OUTPUT CHANNELS"],
    s.toList <:+: upper l ∧ ¬ s.toList <+: upper l) ∧
  ∃ a post, l = a ++ lab ++ post ∧ (∀ c ∈ a, isWs c = true) ∧ lab ≠ [] ∧
    (∀ c ∈ lab, c.isAlphanum = true ∨ c = '_') ∧ ∀ c, post.head? = some c → ¬ (c.isAlphanum = true ∨ c = '_')

/-- `Hand N b v l lines ds c`: after the items `b`, with the tables `v` and `l` still to come, the lines
give the items `ds`; `c` is the number of comments among the lines before a list of channels. -/
inductive Hand (N : Num) : List (Seen N.F) → List Doc → List Doc → List Str → List (Seen N.F) → Nat → Prop
  | nil (b v l) : Hand N b v l [] [] 0
  | comment (b v l line lines ds c) : IsCommentLine line ∨ IsBlank line → NoSection line →
      Hand N (b ++ [.comm N.F line]) v l lines ds c → Hand N b v l (line :: lines) (.comm N.F line :: ds) (c + 1)
  | lone (b v l line lines ds c) : LoneLine N line → Plain (.str line : Val N.F) →
      Hand N (b ++ [.comm N.F line]) v l lines ds c → Hand N b v l (line :: lines) (.comm N.F line :: ds) (c + 1)
  | key (b v l line lines ds c lab val) : KeyLine N b line lab val → Plain val → (∀ k ∈ reserved, lower lab ≠ k.toList) →
      Hand N (b ++ [⟨lab, .plain (.scalar val), false, none, none⟩]) v l lines ds c →
      Hand N b v l (line :: lines) (⟨lab, .plain (.scalar val), false, none, none⟩ :: ds) c
  | list (b v l line lines ds c lab vals) : ListLine N line lab vals → (∀ k ∈ reserved, lower lab ≠ k.toList) →
      Hand N (b ++ [⟨lab, .plain (.list vals), false, none, none⟩]) v l lines ds c →
      Hand N b v l (line :: lines) (⟨lab, .plain (.list vals), false, none, none⟩ :: ds) c
  | pair (b v l line lines ds c x y lab) : KpSeen b → PairLine N line x y lab → (∀ k ∈ reserved, lower lab ≠ k.toList) →
      Hand N (b ++ [⟨lab, .plain (.scalar (.str (x ++ ' ' :: y))), false, none, none⟩]) v l lines ds c →
      Hand N b v l (line :: lines) (⟨lab, .plain (.scalar (.str (x ++ ' ' :: y))), false, none, none⟩ :: ds) c
  /-- a table opened by the first word of its header -/
  | valTable (b v l) (k : Doc) (m h heads rows lines ds c x y val names units) :
      HeadLine N h x y → v.find? (fun q => decide (q.word.toList = lower x)) = some k → RowsAre b k.rows m →
      (h :: heads).length = k.heads → rows.length = m → TableText N (h :: heads) rows k.mix val names units →
      Hand N (b ++ [⟨k.name.toList, val, false, some names, units⟩]) (v.erase k) l lines ds c →
      Hand N b v l (h :: heads ++ rows ++ lines) (⟨k.name.toList, val, false, some names, units⟩ :: ds) c
  /-- a table opened by the second word of its header -/
  | labTable (b v l) (k : Doc) (m h heads rows lines ds c x y val names units) :
      HeadLine N h x y → (∀ k ∈ openers, lower x ≠ k.toList) →
      l.find? (fun q => decide (q.word.toList = lower y)) = some k → k.skip = 0 → k.word ≠ "numalf" → RowsAre b k.rows m →
      (h :: heads).length = k.heads → rows.length = m → TableText N (h :: heads) rows k.mix val names units →
      Hand N (b ++ [⟨k.name.toList, val, false, some names, units⟩]) v (l.erase k) lines ds c →
      Hand N b v l (h :: heads ++ rows ++ lines) (⟨k.name.toList, val, false, some names, units⟩ :: ds) c
  /-- the coefficients of an airfoil, after the key `NumAlf` -/
  | polar (b v l line lab m heads rows lines ds c val names units) : KeyLine N b line lab (.int (m : Nat)) →
      lower lab = "numalf".toList → (∀ d ∈ b, lower d.label ≠ "numalf".toList) →
      (∃ k ∈ l, k.word = "numalf") → heads.length = 2 → rows.length = m →
      TableText N heads rows false val names units →
      Hand N (b ++ [⟨lab, .plain (.scalar (.int m)), false, none, none⟩, ⟨"AFCoeff".toList, val, false, some names, units⟩])
        v l lines ds c →
      Hand N b v l (line :: (heads ++ rows ++ lines))
        (⟨lab, .plain (.scalar (.int m)), false, none, none⟩ :: ⟨"AFCoeff".toList, val, false, some names, units⟩ :: ds) c
  /-- a list of files: one per line, the first on the line of the key -/
  | files (b v l) (k : String × String) (line lab f t rest fs files lines ds c) : k ∈ docFiles → lower lab = lower k.1.toList →
      words line = f :: lab :: rest → TextOK f [f] → Means N f t → Plain t → LabelText N lab → NotEnd line → NoSection line →
      (∃ v, valueOf b k.2.toList = some v ∧ v = .plain (.scalar (.int (fs.length + 1)))) →
      List.Forall₂ (fun g w => ∃ r, words g = w :: r) fs files →
      Hand N (b ++ [⟨k.1.toList, .fil (f :: files), false, none, none⟩]) v l lines ds c →
      Hand N b v l (line :: (fs ++ lines)) (⟨k.1.toList, .fil (f :: files), false, none, none⟩ :: ds) c
  /-- the list of channels, until a line `END`; what follows is ignored -/
  | channels (b v l line lab chans stop more) : N.parse "END".toList = none → N.parse "of".toList = none →
      ChannelHead line lab → (∀ c ∈ chans, ¬ "END".toList <+: upper c) → chans.length ≤ 200 → "END".toList <+: upper stop →
      (∀ x, more[1]? = some x → ¬ "bldnd_bladesout".toList <:+: lower x ∧ ¬ "bldnd_bloutnd".toList <:+: lower x) →
      Hand N b v l (line :: (chans ++ stop :: more))
        (⟨lab, .fil ([] :: chans), false, none, none⟩ :: (endEntries N.F).map Item.seen) 0
  /-- the list of channels until the end of the file -/
  | channelsEnd (b v l line lab chans) : ChannelHead line lab → (∀ c ∈ chans, ¬ "END".toList <+: upper c) →
      chans.length ≤ 200 → Hand N b v l (line :: chans) [⟨lab, .fil ([] :: chans), false, none, none⟩] 0

end Verif.FastRead
