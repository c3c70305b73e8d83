import Verif.Model.FastDict
/-!
# Dedicated FAST input files — `/repo/weio/fast_input_file.py:37-144, 150-294, 736-751, 1303-1650`

`EDBladeFile`, `ADBladeFile`, `ADPolarFile`, `ExtPtfmFile` and the wrapper
`FASTInputFile` which picks one of them.  Items are those of `Model/FastDict`.
Simplification: python values are an abstract type `V` of which only the
observations of `Env` are used; the text made by `toString` is not modelled
here (see `Model/FastFile`, `Model/FastTable`), only the object it is made of;
the numbers of `ExtPtfmFile` are in `Model/ExtPtfm`.
-/
namespace Verif.FastTypes
open Verif.Py Verif.FastDict

/-- the exceptions raised -/
inductive Err where
  | key | index | attr | type | value | assert_ | os | other
deriving Repr, DecidableEq

/-- What is observed of a python value. -/
structure Env (V : Type) where
  /-- `v.shape[0]`; `none`: `AttributeError` -/
  rows : V → Option Nat
  /-- `v.shape[1]`; `none`: `IndexError`/`AttributeError` -/
  cols : V → Option Nat
  /-- the integer `n` -/
  nat : Nat → V
  /-- the value seen as an integer (`nTabs==1`, `range(nTabs)`); `none`: `TypeError` in `range` -/
  int : V → Option Nat
  /-- the value can be summed by `np.sum` -/
  numeric : V → Bool
  /-- the value seen as a text -/
  text : V → Option Str
  /-- a text -/
  str : Str → V
  /-- the exception raised by `toString`, if any (653-734) -/
  toStringErr : Data V → Option Err

/-- the class of the object -/
inductive Kind where
  | base | adBlade | edBlade | extPtfm | adPolar
deriving Repr, DecidableEq

/-- `FASTInputFile.fixedFormat` (83-97): the class chosen from the keys, which are compared
with their case, and from `self.module`. -/
def fixedFormat (module_ : Option Str) (data : Data V) : Kind :=
  if "NumBlNds".toList ∈ keys data then .adBlade
  else if "NBlInpSt".toList ∈ keys data then .edBlade
  else if "MassMatrix".toList ∈ keys data ∧ module_ = some "ExtPtfm".toList then .extPtfm
  else if "NumCoords".toList ∈ keys data ∧ "InterpOrd".toList ∈ keys data then .adPolar
  else .base

/-! ### sanity checks before writing -/

/-- the state of the object after a method, and the exception it raised -/
abbrev Step (V : Type) := Data V × Option Err

/-- `self[k]=self[t].shape[0]` (1352, 1409, 1560, 1564) -/
def syncCount (E : Env V) (data : Data V) (k t : Str) : Step V :=
  match getitem data t with
  | none => (data, some .key)
  | some v =>
    match E.rows v with
    | none => (data, some .attr)
    | some n => (setitem data k (E.nat n), none)

/-- `ADBladeFile._writeSanityChecks` (1407-1417); `np.gradient` (1412) raises `ValueError` on fewer
than two nodes.  Simplification: the table is taken to be numeric with four columns or more. -/
def sanityADBlade (E : Env V) (data : Data V) : Step V :=
  match syncCount E data "NumBlNds".toList "BldAeroNodes".toList with
  | (d, some e) => (d, some e)
  | (d, none) =>
    match (getitem data "BldAeroNodes".toList).bind E.rows with
    | some n => if n < 2 then (d, some .value) else (d, none)
    | none => (d, some .key)

/-- the coefficients summed at 1354-1355 -/
def coeffNames : List Str :=
  ["BldFl1Sh(2)", "BldFl1Sh(3)", "BldFl1Sh(4)", "BldFl1Sh(5)", "BldFl1Sh(6)",
   "BldFl2Sh(2)", "BldFl2Sh(3)", "BldFl2Sh(4)", "BldFl2Sh(5)", "BldFl2Sh(6)",
   "BldEdgSh(2)", "BldEdgSh(3)", "BldEdgSh(4)", "BldEdgSh(5)", "BldEdgSh(6)"].map String.toList

/-- the sums of 1354-1357.  Simplification: names are looked up and checked one after the other
(in the code five at a time). -/
def sumErr (E : Env V) (data : Data V) : List Str → Option Err
  | [] => none
  | k :: ks =>
    match getitem data k with
    | none => some .key
    | some v => if E.numeric v then sumErr E data ks else some .type

/-- `EDBladeFile._writeSanityChecks` (1350-1357) -/
def sanityEDBlade (E : Env V) (data : Data V) : Step V :=
  match syncCount E data "NBlInpSt".toList "BldProp".toList with
  | (d, some e) => (d, some e)
  | (d, none) => (d, sumErr E d coeffNames)

/-- `labOffset='_{}'.format(iTab+1)` (1563, 1578) -/
def offset (iTab : Nat) : Str := '_' :: Nat.toDigits 10 (iTab + 1)

/-- the loop 1562-1564 over the tables still to do -/
def syncTabs (E : Env V) (data : Data V) : List Nat → Step V
  | [] => (data, none)
  | i :: is =>
    match syncCount E data ("NumAlf".toList ++ offset i) ("AFCoeff".toList ++ offset i) with
    | (d, some e) => (d, some e)
    | (d, none) => syncTabs E d is

/-- `ADPolarFile._writeSanityChecks` (1556-1565) -/
def sanityADPolar (E : Env V) (data : Data V) : Step V :=
  match getitem data "NumTabs".toList with
  | none => (data, some .key)
  | some v =>
    match E.int v with
    | none => (data, some .type)
    | some 1 => syncCount E data "NumAlf".toList "AFCoeff".toList
    | some n => syncTabs E data (List.range n)

/-- one matrix of `ExtPtfmFile._writeSanityChecks`: as many rows as `nDOF`, and square -/
def squareErr (E : Env V) (data : Data V) (nDOF : V) (k : Str) : Option Err :=
  match getitem data k with
  | none => some .key
  | some m =>
    match E.rows m, E.int nDOF with
    | none, _ => some .attr
    | some _, none => some .assert_
    | some r, some n => if r = n ∧ E.cols m = some r then none else some .assert_

/-- `ExtPtfmFile._writeSanityChecks` (1781-1788).  Simplification: one matrix after the other. -/
def sanityExtPtfm (E : Env V) (data : Data V) : Step V :=
  match getitem data "nDOF".toList with
  | none => (data, some .key)
  | some n =>
    match squareErr E data n "MassMatrix".toList with
    | some e => (data, some e)
    | none =>
      match squareErr E data n "StiffnessMatrix".toList with
      | some e => (data, some e)
      | none => (data, squareErr E data n "DampingMatrix".toList)

/-- `_writeSanityChecks` of each class; the base class (744-746) checks nothing -/
def sanity (E : Env V) : Kind → Data V → Step V
  | .base, data => (data, none)
  | .adBlade, data => sanityADBlade E data
  | .edBlade, data => sanityEDBlade E data
  | .extPtfm, data => sanityExtPtfm E data
  | .adPolar, data => sanityADPolar E data

/-! ### writing -/

/-- what happened to the file -/
inductive FileState (V : Type) where
  | untouched
  | truncated
  | text (of : Data V)
deriving Repr, DecidableEq

/-- the object, the file and the exception after `write` -/
structure Out (V : Type) where
  data : Data V
  file : FileState V
  err : Option Err
deriving Repr, DecidableEq

/-- `with open(self.filename,'w') as f: f.write(self.toString())` (750-751, 1584-1585):
the file is opened, hence emptied, before the text is made. -/
def emit (E : Env V) (canOpen : Bool) (data : Data V) : FileState V × Option Err :=
  if canOpen then
    match E.toStringErr data with
    | some e => (.truncated, some e)
    | none => (.text data, none)
  else (.untouched, some .os)

/-- `FASTInputFileBase._write` (748-751) with the checks of the class -/
def baseWrite (E : Env V) (k : Kind) (canOpen : Bool) (data : Data V) : Out V :=
  match sanity E k data with
  | (d, some e) => ⟨d, .untouched, some e⟩
  | (d, none) => ⟨d, (emit E canOpen d).1, (emit E canOpen d).2⟩

/-- `Labs` (1573) -/
def polarLabs : List Str :=
  ["Re", "Ctrl", "UserProp", "alpha0", "alpha1", "alpha2", "eta_e", "C_nalpha", "T_f0", "T_V0", "T_p",
   "T_VL", "b1", "b2", "b5", "A1", "A2", "A5", "S1", "S2", "S3", "S4", "Cn1", "Cn2", "St_sh", "Cd0", "Cm0",
   "k0", "k1", "k2", "k3", "k1_hat", "x_cp_bar", "UACutout", "filtCutOff", "InclUAdata", "NumAlf",
   "AFCoeff"].map String.toList

/-- `i = self.getIDSafe(labRaw+labOffset); if i>0: self.data[i]['label'] = labRaw` (1580-1582) -/
def stripOne (data : Data V) (raw off : Str) : Data V :=
  match getIDSafe data (raw ++ off) with
  | some i => if 0 < i then data.modify i (fun d => { d with label := raw }) else data
  | none => data

/-- the (label, suffix) pairs in the order of the two loops 1577-1579 -/
def stripJobs (n : Nat) : List (Str × Str) :=
  (List.range n).flatMap fun i => polarLabs.map fun raw => (raw, offset i)

/-- the loops 1577-1582 -/
def stripAll (data : Data V) (n : Nat) : Data V :=
  (stripJobs n).foldl (fun d j => stripOne d j.1 j.2) data

/-- 1587-1588: `for i,labFull in enumerate(AllLabels): self.data[i]['label'] = labFull` -/
def restore (labels : List Str) (data : Data V) : Data V :=
  List.zipWith (fun l d => { d with label := l }) labels data

/-- writing several tables (1572-1588); the labels are put back only when nothing was raised -/
def polarWrite (E : Env V) (canOpen : Bool) (data : Data V) (n : Nat) : Out V :=
  match sanityADPolar E data with
  | (d, some e) => ⟨d, .untouched, some e⟩
  | (d, none) =>
    match emit E canOpen (stripAll d n) with
    | (f, some e) => ⟨stripAll d n, f, some e⟩
    | (f, none) => ⟨restore (d.map Entry.label) (stripAll d n), f, none⟩

/-- `write` of an object of class `k` (736-751; 1567-1588 for polars).  When `NumTabs` is not an
integer the loop `range(nTabs)` of the sanity checks raises. -/
def write (E : Env V) (k : Kind) (canOpen : Bool) (data : Data V) : Out V :=
  match k with
  | .adPolar =>
    match getitem data "NumTabs".toList with
    | none => ⟨data, .untouched, some .key⟩
    | some v =>
      match E.int v with
      | none => ⟨data, .untouched, some .type⟩
      | some 1 => baseWrite E .adPolar canOpen data
      | some n => polarWrite E canOpen data n
  | k => baseWrite E k canOpen data

/-! ### the wrapper `FASTInputFile` (37-144) -/

/-- what the generic reader makes of a file: its items and `self.module` -/
structure Parsed (V : Type) where
  data : Data V
  module_ : Option Str
deriving Repr, DecidableEq

/-- the wrapper: class chosen so far (`self._fixedfile`, `none` before the first use) and content -/
structure Wrap (V : Type) where
  kind : Option Kind
  cont : Parsed V
deriving Repr, DecidableEq

/-- `FASTInputFile(filename)` (63-65) -/
def Wrap.open_ (p : Parsed V) : Wrap V := ⟨none, p⟩

/-- the property `fixedfile` (67-75): the class is chosen once, when there is data -/
def Wrap.fixed (w : Wrap V) : Wrap V :=
  match w.kind with
  | some _ => w
  | none => if w.cont.data.length > 0 then ⟨some (fixedFormat w.cont.module_ w.cont.data), w.cont⟩ else w

/-- the class used by the methods: `basefile` (75) when nothing was chosen -/
def Wrap.cls (w : Wrap V) : Kind := (w.fixed.kind).getD .base

/-- `read` (99-100) of a file which the generic reader parses to `p`: the object in use reads it.
Simplification: not for `ExtPtfmFile`, which has its own reader (1751-1754). -/
def Wrap.read (w : Wrap V) (p : Parsed V) : Wrap V := ⟨w.fixed.kind, p⟩

/-- `write` (102-103) -/
def Wrap.write (E : Env V) (w : Wrap V) (canOpen : Bool) : Out V :=
  FastTypes.write E w.cls canOpen w.cont.data

/-! ### objects made by the class from a file -/

/-- an element of `self.data`, which may be a mere text (1347) -/
inductive Item (V : Type) where
  | entry (d : Entry V)
  | line (s : Str)
deriving Repr, DecidableEq

/-- `EDBladeFile(filename)` (1310-1348): the generic reader, then `self.data[1] =  self._lines[1]`.
`IndexError` when there is one item or one line only. -/
def openEDBlade (data : Data V) (lines : List Str) : Except Err (List (Item V)) :=
  match lines[1]? with
  | none => .error .index
  | some l =>
    if data.length < 2 then .error .index
    else .ok ((data.map Item.entry).set 1 (.line l))

/-- `ADBladeFile(filename)`, `ADPolarFile(filename)` (1396-1405, 1489-1554): nothing is changed -/
def openOther (data : Data V) : Except Err (List (Item V)) := .ok (data.map Item.entry)

/-- `getIDSafe` (214-220) over such a list: `d['label']` of a text is `TypeError` -/
def findItem (key : Str) : List (Item V) → Except Err (Option (Entry V))
  | [] => .ok none
  | .line _ :: _ => .error .type
  | .entry d :: ds => if sameLabel key d then .ok (some d) else findItem key ds

/-- `__getitem__` (241-243, 195-200) -/
def getItem (ds : List (Item V)) (key : Str) : Except Err V :=
  match findItem key ds with
  | .error e => .error e
  | .ok none => .error .key
  | .ok (some d) => .ok d.value

/-- `keys` (191-193): `not d['isComment']` of a text is `TypeError` -/
def keyList : List (Item V) → Except Err (List Str)
  | [] => .ok []
  | .line _ :: _ => .error .type
  | .entry d :: ds =>
    match keyList ds with
    | .error e => .error e
    | .ok l => .ok (if d.isComment then l else d.label :: l)

/-! ### comments -/

/-- `_IComment` (292-294, 1383, 1476, 1643-1651).  `none`: an exception (missing line, value that is not a
text) -/
def iComment (E : Env V) (k : Kind) (data : Data V) : Option (List Nat) :=
  match k with
  | .base => some []
  | .extPtfm => some []
  | .adBlade => some [1]
  | .edBlade => some [1]
  | .adPolar =>
    [1, 2, 3].foldr (fun i (acc : Option (List Nat)) =>
      match acc, (data[i]?).bind (fun d => E.text d.value) with
      | some l, some s =>
        some (if startsWith s ['!'] && !startsWith s "! ---".toList then i :: l else l)
      | _, _ => none) (some [])

/-- what reading `f.comment` gives -/
inductive Seen where
  | text (s : Str)
  /-- a `property` object, 1634-1635 -/
  | prop
  | raised
deriving Repr, DecidableEq

/-- texts of the given items, `none` when one is missing or not a text -/
def textsAt (E : Env V) (data : Data V) : List Nat → Option (List Str)
  | [] => some []
  | i :: is =>
    match (data[i]?).bind (fun d => E.text d.value), textsAt E data is with
    | some s, some r => some (s :: r)
    | _, _ => none

/-- the getter `comment` (281-283; 1633-1635 for polars) -/
def getComment (E : Env V) (k : Kind) (data : Data V) : Seen :=
  match k with
  | .adPolar => .prop
  | k =>
    match (iComment E k data).bind (textsAt E data) with
    | some ls => .text (joinWith ['\n'] ls)
    | none => .raised

/-- the assignments 287-288 / 1639-1641 -/
def putComment (E : Env V) (pre : Str) (data : Data V) : List (Nat × Str) → Option (Data V)
  | [] => some data
  | (i, c) :: r =>
    if i < data.length then putComment E pre (data.modify i (fun d => { d with value := E.str (pre ++ c) })) r
    else none

/-- the setter `comment` (285-289; 1637-1641 for polars); `none`: an exception -/
def setComment (E : Env V) (k : Kind) (data : Data V) (c : Str) : Option (Data V) :=
  match iComment E k data with
  | none => none
  | some is =>
    putComment E (if k = .adPolar then ['!', ' '] else []) data (is.zip (splitOn '\n' c))

/-- the setter of the wrapper (125-127): `self.fixedfile.comment(comment)` calls what the getter
gives, a text or a `property` object, neither of which can be called: always an exception,
`TypeError` unless the getter itself raises.  The object is left as it was. -/
def Wrap.setComment (E : Env V) (w : Wrap V) (_c : Str) : Wrap V × Option Err :=
  match getComment E w.cls w.cont.data with
  | .raised => (w.fixed, some .index)
  | _ => (w.fixed, some .type)

/-! ### prototypes -/

/-- `ADBladeFile()` (1398-1404).  `zeros r c` is `np.zeros((r,c))`; comments are kept as texts. -/
def protoADBlade (E : Env V) (none_ : V) (zeros : Nat → Nat → V) : Data V :=
  run none_ []
    [.addComment (E.str "------- AERODYN BLADE DEFINITION INPUT FILE ----------------------------------------------".toList),
     .addComment (E.str "Aerodynamic blade definition, written by ADBladeFile".toList),
     .addComment (E.str "======  Blade Properties =================================================================".toList),
     .addKeyVal "NumBlNds".toList (E.nat 0) (some "Number of blade nodes used in the analysis (-)".toList),
     .addTable "BldAeroNodes".toList (zeros 0 7) 1]

/-- labels of the UA data of a table (1516-1547) -/
def uaLabs : List Str :=
  ["alpha0", "alpha1", "alpha2", "eta_e", "C_nalpha", "T_f0", "T_V0", "T_p", "T_VL", "b1", "b2", "b5", "A1", "A2",
   "A5", "S1", "S2", "S3", "S4", "Cn1", "Cn2", "St_sh", "Cd0", "Cm0", "k0", "k1", "k2", "k3", "k1_hat", "x_cp_bar",
   "UACutout", "filtCutOff"].map String.toList

/-- the items of one table of `ADPolarFile(numTabs=…, hasUA=…)` (1508-1553).
Simplification: comments, descriptions and the default values of the numbers are not kept. -/
def protoTab (none_ : V) (bool : Bool → V) (zeros : Nat → Nat → V) (hasUA : Bool) (off : Str) : List (Op V) :=
  [.addComment none_, .addComment none_, .addComment none_,
   .addKeyVal ("Re".toList ++ off) none_ none, .addKeyVal ("Ctrl".toList ++ off) none_ none] ++
  (if hasUA then
    [.addKeyVal "InclUAdata".toList (bool true) none, .addComment none_] ++
    uaLabs.map (fun l => .addKeyVal (l ++ off) none_ none) ++ [.addComment none_]
   else [.addKeyVal ("InclUAdata".toList ++ off) (bool false) none]) ++
  [.addComment none_, .addKeyVal ("NumAlf".toList ++ off) none_ none, .addTable ("AFCoeff".toList ++ off) (zeros 0 4) 2]

/-- `ADPolarFile(hasUA=…, numTabs=…)` (1489-1554) -/
def protoADPolar (E : Env V) (none_ : V) (bool : Bool → V) (zeros : Nat → Nat → V) (hasUA : Bool) (numTabs : Nat) :
    Data V :=
  run none_ []
    ([.addComment none_, .addComment none_, .addComment none_, .addComment none_, .addComment none_,
      .addKeyVal "InterpOrd".toList none_ none, .addKeyVal "NonDimArea".toList none_ none,
      .addKeyVal "NumCoords".toList none_ none, .addKeyVal "NumTabs".toList (E.nat numTabs) none] ++
     (List.range numTabs).flatMap fun i =>
       protoTab none_ bool zeros hasUA (if numTabs = 1 then [] else offset i))

end Verif.FastTypes
