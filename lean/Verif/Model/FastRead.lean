import Verif.Model.FastTable
/-!
# Reading and writing whole OpenFAST input files — `/repo/weio/fast_input_file.py`

The whole of `FASTInputFileBase._read` (309-650) — key/value lines, channel lists,
tables, file lists, airfoil coordinates, BeamDyn sections, AeroDyn 14 polars — and
of `toString` (653-734).  Lines without tables are those of `Model/FastLine`, tables
those of `Model/FastTable`.

Simplifications
* floats: `Num`, which adds the formats of `toString` to a `PyFloat`;
* a file detected as an external platform (373) is the error `unmodelled`: see
  `Model/ExtPtfm`;
* a table count or `NumTabs` that is a logical, a `NumTabs` that is a float, a negative
  number of AeroDyn 14 tables: `unmodelled`;
* `\w` and `\d` are ASCII, `0.35` and `0.10` exact; a unit line containing the separator
  `!#@#!` of `detectUnits` is not modelled;
* `tabColumnNames`/`tabUnits` absent from the dictionary or `None` are both `none`;
  `tabDimVar` is not kept: it is not used after reading;
* the warnings printed are not modelled, nor `self._lines` (650).
-/
namespace Verif.FastRead
open Verif.Py Verif.FastDict Verif.FastLine Verif.FastTable

/-- floats with the formats used by `toString` -/
structure Num extends PyFloat where
  /-- `0.0` -/
  zero : F
  /-- `'{:15.0f}'.format(x) if int(x)==x else '{:15.8e}'.format(x)` (702); `none`: `int(x)` raises
  (`nan`, `inf`) -/
  cell : F → Option Str
  /-- `'{:15.8e}'.format(x)` (714) -/
  e15 : F → Str
  /-- `'{:24.16E}'.format(x)` (667) -/
  e24 : F → Str
  /-- `'{:.6f}'.format(x)` (669) -/
  f6 : F → Str
  /-- how many numbers the regular expression of 1168-1172 finds -/
  numCount : Str → Nat

/-- a cell of a `mix` table: a text, or a float -/
inductive Cell (F : Type) where
  | txt (s : Str)
  | num (x : F)

/-- `d['value']` -/
inductive FVal (F : Type) where
  /-- a scalar or a list -/
  | plain (v : EVal F)
  /-- a float array -/
  | num (rows : List (List F))
  /-- an array of a `mix` table -/
  | mix (rows : List (List (Cell F)))
  /-- a list of texts -/
  | fil (names : List Str)
  /-- BeamDyn sections: span, 36 stiffness and 36 mass terms -/
  | beam (sections : List (F × List F × List F))

/-- the `TABTYPE_…` constants (26-33) -/
inductive TabType where
  | notTab | numHeader | numHeaderCom | fil | numNoHeader | beamdyn | mixHeader
deriving DecidableEq, Repr

/-- one element of `self.data` -/
structure Item (F : Type) where
  label : Str
  value : FVal F
  isComment : Bool := false
  descr : Str := []
  tabType : TabType := .notTab
  names : Option (List Str) := none
  units : Option (List Str) := none

/-- the dictionary made by `parseFASTInputLine` -/
def Item.ofEntry (e : Entry (EVal F)) : Item F :=
  { label := e.label, value := .plain e.value, isComment := e.isComment, descr := e.descr }

/-- a comment (`isComment`, `value`) -/
def Item.comment (l : Str) : Item F :=
  { label := [], value := .plain (.scalar (.str l)), isComment := true }

/-- exceptions; `fuel`: the loop is still running -/
inductive RErr where
  | wrongFormat | broken | other | unmodelled | fuel
deriving DecidableEq, Repr

/-- errors of one line -/
def RErr.ofLine : Err → RErr
  | .wrongFormat => .wrongFormat
  | .other => .other
  | .unmodelled => .unmodelled

/-- errors of one table -/
def RErr.ofTable : TErr → RErr
  | .broken => .broken
  | .unbound => .other
  | .other => .other

/-- `self[key]` (241-243) -/
def lookup (data : List (Item F)) (key : Str) : Option (FVal F) :=
  (data.find? (fun d => lower d.label == lower key)).map Item.value

/-! ### the kinds of tables (313-351) -/

/-- the variable giving the number of lines, or the number itself -/
inductive Dim where
  | var (name : Str)
  | const (n : Nat)
deriving DecidableEq, Repr

/-- one column of the `NUMTAB_…` lists -/
structure Kind where
  detect : Str        -- lower case
  dim : Dim
  name : Str
  nHeaders : Nat
  nOffset : Nat
  mix : Bool
deriving DecidableEq, Repr

/-- helper -/
def mkKind (detect dim name : String) (nHeaders nOffset : Nat) (mix : Bool) : Kind :=
  ⟨detect.toList, .var dim.toList, name.toList, nHeaders, nOffset, mix⟩

/-- `NUMTAB_FROM_VAL_…` (313-323, 354) -/
def valKinds : List Kind :=
  [mkKind "htfract" "NTwInpSt" "TowProp" 2 0 false,
   mkKind "twrelev" "NumTwrNds" "TowProp" 2 0 false,
   mkKind "blfract" "NBlInpSt" "BldProp" 2 0 false,
   mkKind "genspd_tlu" "DLL_NumTrq" "DLLProp" 2 0 false,
   mkKind "blspn" "NumBlNds" "BldAeroNodes" 2 0 false,
   mkKind "wndspeed" "NumCases" "Cases" 2 0 false,
   mkKind "hvcoefid" "NHvCoef" "HvCoefs" 2 0 false,
   mkKind "axcoefid" "NAxCoef" "AxCoefs" 2 0 false,
   mkKind "jointid" "NJoints" "Joints" 2 0 false,
   mkKind "dpth" "NCoefDpth" "DpthProp" 2 0 false,
   mkKind "fillnumm" "NFillGroups" "FillGroups" 2 0 false,
   mkKind "mgdpth" "NMGDepths" "MGProp" 2 0 false,
   ⟨"simplcd".toList, .const 1, "SmplProp".toList, 2, 0, false⟩,
   mkKind "rnodes" "BldNodes" "BldAeroNodes" 1 0 true,
   mkKind "kp_xr" "kp_total" "MemberGeom" 2 0 false,
   ⟨"mu1".toList, .const 1, "DampingCoeffs".toList, 2, 0, false⟩,
   mkKind "twrhtfr" "NTwrHt" "TowerProp" 1 0 false,
   mkKind "twrre" "NTwrRe" "TowerRe" 1 0 false,
   mkKind "wt_x" "NumTurbines" "WindTurbines" 2 0 true,
   mkKind "rjointid" "NReact" "BaseJoints" 2 0 true,
   mkKind "ijointid" "NInterf" "InterfaceJoints" 2 0 false,
   mkKind "cosmid" "NCOSMs" "MemberCosineMatrix" 2 0 false,
   mkKind "cmjointid" "NCmass" "ConcentratedMasses" 2 0 false]

/-- `NUMTAB_FROM_LAB_…` (328-347, 355) -/
def labKinds : List Kind :=
  [mkKind "numalf" "NumAlf" "AFCoeff" 2 0 false,
   mkKind "f_x" "NKInpSt" "TMDspProp" 2 0 false,
   mkKind "membercd1" "NCoefMembers" "MemberProp" 2 0 false,
   mkKind "mjointid1" "NMembers" "Members" 2 0 true,
   mkKind "noutloc" "NMOutputs" "MemberOuts" 2 0 false,
   mkKind "noutcnt" "NMOutputs" "MemberOuts" 2 0 false,
   mkKind "propd" "NPropSets" "SectionProp" 2 0 false,
   mkKind "diam" "NTypes" "LineTypes" 2 0 true,
   mkKind "type" "NConnects" "ConnectionProp" 2 0 true,
   mkKind "linetype" "NLines" "LineProp" 2 0 true,
   ⟨"guyandampsize".toList, .const 6, "GuyanDampMatrix".toList, 0, 1, false⟩,
   mkKind "younge" "NPropSets" "BeamProp" 2 0 false,
   mkKind "younge" "NXPropSets" "BeamPropX" 2 0 false,
   mkKind "ea" "NCablePropSets" "CableProp" 2 0 false,
   mkKind "matdens" "NRigidPropSets" "RigidProp" 2 0 false,
   mkKind "gridname" "nGridOut" "GridOutputs" 0 2 true]

/-- `FILTAB_FROM_LAB_…` (349-351, 356): lower-case label, dimension, name -/
def filKinds : List (Str × Str × Str) :=
  [("foilnm".toList, "NumFoil".toList, "FoilNm".toList),
   ("afnames".toList, "NumAFfiles".toList, "AFNames".toList)]

/-! ### tables with their units (1153-1272) -/

/-- number of occurrences of a character -/
def countChar (c : Char) (s : Str) : Nat := s.countP (· == c)

/-- `detectUnits` (1136-1150) -/
def detectUnits (s : Str) (nRef : Nat) : List Str :=
  if countChar '(' s = countChar ')' s ∧ nRef ≤ countChar '(' s then
    (splitOn ')' (s.filter (· != '('))).dropLast
  else if countChar '[' s = countChar ']' s ∧ nRef ≤ countChar '[' s then
    (splitOn ']' (s.filter (· != '['))).dropLast
  else words s

/-- `'({})'.format(u.strip())` (1198) -/
def wrapUnit (u : Str) : Str := '(' :: strip u ++ [')']

/-- `'('+u.replace('(','').replace(')','')+')'` (1266) -/
def rewrapUnit (u : Str) : Str := '(' :: u.filter (fun c => c != '(' && c != ')') ++ [')']

/-- the units of the second header line (1190-1198), for `nRef` column names -/
def headerUnits (l : Str) (nRef : Nat) : List Str :=
  let s := cleanAfterChar (cleanAfterChar (cleanLine l) '!') '#'
  let s := if startsWith s ['!'] then strip (s.drop 1) else s
  (detectUnits s nRef).map wrapUnit

/-- the units returned (1188-1198, 1223, 1252, 1264-1266); `extra`: how many `'Col'` were
added; `w`: the number of columns -/
def tableUnits (lines : List Str) (nHeaders nRef extra w : Nat) : Option (List Str) :=
  if nHeaders < 2 then none
  else some (((headerUnits (lines.getD 1 []) nRef ++ List.replicate extra "Col".toList).take w).map rewrapUnit)

/-- `s.replace(a, b)` for a non-empty `a`; the fuel is the length of the text -/
def replaceFuel (a b : Str) : Nat → Str → Str
  | 0, s => s
  | _ + 1, [] => []
  | n + 1, c :: s =>
    if startsWith (c :: s) a then b ++ replaceFuel a b n ((c :: s).drop a.length)
    else c :: replaceFuel a b n s

/-- `s.replace(a, b)` -/
def replaceStr (a b s : Str) : Str := replaceFuel a b s.length s

/-- `float` after the replacements of 1228-1229 -/
def conv (N : Num) (s : Str) : Option N.F :=
  N.parse (replaceStr "print".toList ['1'] (replaceStr "noprint".toList ['0']
    (replaceStr "false".toList ['0'] (replaceStr "true".toList ['1'] s))))

/-- what a table parser returns: value, `tabColumnNames`, `tabUnits` -/
structure Parsed (F : Type) where
  value : FVal F
  names : Option (List Str)
  units : Option (List Str)

/-- the width of the first line of data, if there is one -/
def dataWidth (tokens : Str → List Str) (lines : List Str) (skip : Nat) : Option Nat :=
  (lines[skip]?).map (fun l => (tokens l).length)

/-- how many `'Col'` are added to names and units (1219-1223) -/
def numExtra (names : List Str) (w : Nat) : Nat :=
  if w ≠ names.length ∧ (names.getLast?.map lower) = some "nodecnt".toList then w - names.length else 0

/-- `parseFASTNumTable` for type `num`; with `nHeaders==0` the names are `None` (1267-1268) -/
def readNum (N : Num) (lines : List Str) (n nHeaders nOffset : Nat) : Except RErr (Parsed N.F) :=
  match parseNum (conv N) N.numCount lines n nHeaders nOffset with
  | .error e => .error (.ofTable e)
  | .ok t =>
    let names := headerNames (lines.getD 0 [])
    let w := (dataWidth numTokens lines (nHeaders + nOffset)).getD names.length
    .ok ⟨.num t.rows, if nHeaders = 0 then none else some t.names,
      tableUnits lines nHeaders names.length (numExtra names w) w⟩

/-- a cell of a `mix` table before 1257: `none` is the `0.0` of `np.zeros` -/
def cellIsFloat (N : Num) : Option Str → Bool
  | none => true
  | some s => strIsFloat N.toPyFloat s

/-- `Tab.astype(float)` (1259) of one cell that is a float -/
def cellFloat (N : Num) : Option Str → Cell N.F
  | none => .num N.zero
  | some s => match N.parse s with
    | some x => .num x
    | none => .txt s

/-- a cell when the table keeps its texts -/
def cellText (N : Num) : Option Str → Cell N.F
  | none => .num N.zero
  | some s => .txt s

/-- 1257-1259: all cells are floats, or the table keeps its texts -/
def mixCells (N : Num) (rows : List (List (Option Str))) : List (List (Cell N.F)) :=
  if rows.all (·.all (cellIsFloat N)) then rows.map (·.map (cellFloat N))
  else rows.map (·.map (cellText N))

/-- `parseFASTNumTable` for type `mix` -/
def readMix (N : Num) (lines : List Str) (n nHeaders nOffset : Nat) : Except RErr (Parsed N.F) :=
  match parseMix lines n nHeaders nOffset with
  | .error e => .error (.ofTable e)
  | .ok t =>
    let names := headerNames (lines.getD 0 [])
    let w := (dataWidth mixTokens lines (nHeaders + nOffset)).getD names.length
    .ok ⟨.mix (mixCells N t.rows), some t.names,
      tableUnits lines nHeaders names.length (w - names.length) w⟩

/-- `parseFASTNumTable(…, tableType=tab_type)` -/
def readTable (N : Num) (mix : Bool) (lines : List Str) (n nHeaders nOffset : Nat) :
    Except RErr (Parsed N.F) :=
  if mix then readMix N lines n nHeaders nOffset else readNum N lines n nHeaders nOffset

/-! ### the loop -/

/-- the variables of the loop (379-385), and `self.data`, `self.hasNodal` -/
structure St (F : Type) where
  data : List (Item F) := []
  nComments : Nat := 0
  nWrong : Nat := 0
  allow : Bool := false
  iTab : Nat := 0
  off : Str := []
  vals : List Kind := valKinds
  labs : List Kind := labKinds
  nodal : Bool := false

/-- how an iteration ends: the file is read (`break`, `return`), or the loop goes on at index
`i` with the lines `rest` -/
inductive Turn (F : Type) where
  | stop (data : List (Item F))
  | go (s : St F) (i : Nat) (rest : List Str)

/-- `self.data.append(d)` -/
def St.add (s : St F) (d : Item F) : St F := { s with data := s.data ++ [d] }

/-- 613-633: append, next line, safety checks.  `i` is the index after the increment of 614, `n`
the number of lines of the file. -/
def finish (n : Nat) (s : St F) (d : Item F) (i : Nat) (rest : List Str) : Except RErr (Turn F) :=
  let nC := if d.isComment then s.nComments + 1 else s.nComments
  let special := !d.isComment && hasSpecialChars d.label
  let nW := s.nWrong + (if special then 1 else 0) + (if !d.isComment && d.label.isEmpty then 1 else 0)
  if special && decide (3 < i) then .error .wrongFormat
  else if 100 * nC > 35 * n then .error .wrongFormat
  else if 10 * nW > n then .error .wrongFormat
  else .ok (.go { s with data := s.data ++ [d], nComments := nC, nWrong := nW } i rest)

/-- the number of lines of a table; a value that is not an integer cannot be added to `i`
(TypeError); a missing variable is a KeyError -/
def tabLines (data : List (Item F)) : Dim → Str → Except RErr Int
  | .const n, _ => .ok n
  | .var name, off =>
    match lookup data (name ++ off) with
    | some (.plain (.scalar (.int n))) => .ok n
    | some (.plain (.scalar (.bool _))) => .error .unmodelled
    | _ => .error .other

/-- the type of table stored (527-530, 576-579) -/
def tabTypeOf (mix : Bool) : TabType := if mix then .mixHeader else .numHeader

/-- 523-550: a table detected by the value of its header line.  `here` are the lines from the
header on.  A negative count always ends in a BrokenFormatError: the lines cut out are fewer than
the headers. -/
def valTable (N : Num) (n : Nat) (s : St N.F) (k : Kind) (d : Item N.F) (i : Nat) (here : List Str) :
    Except RErr (Turn N.F) :=
  match tabLines s.data k.dim [] with
  | .error e => .error e
  | .ok m =>
    if m < 0 then .error .broken
    else
      match readTable N k.mix (here.take (m.toNat + k.nHeaders)) m.toNat k.nHeaders 0 with
      | .error e => .error e
      | .ok t =>
        finish n { s with vals := s.vals.erase k }
          { d with label := k.name ++ s.off, value := t.value, names := t.names, units := t.units,
                   tabType := tabTypeOf k.mix }
          (i + m.toNat + k.nHeaders) (here.drop (m.toNat + k.nHeaders))

/-- 572-599: a table detected by its label, from its first line `here` on; `d` is the dictionary
it is stored in. -/
def labTableAt (N : Num) (n : Nat) (s : St N.F) (k : Kind) (d : Item N.F) (i : Nat) (here : List Str) :
    Except RErr (Turn N.F) :=
  match tabLines s.data k.dim s.off with
  | .error e => .error e
  | .ok m =>
    if m < 0 then .error .broken
    else
      match readTable N k.mix (here.take (m.toNat + k.nHeaders + k.nOffset)) m.toNat k.nHeaders k.nOffset with
      | .error e => .error e
      | .ok t =>
        finish n (if k.detect = "numalf".toList then s else { s with labs := s.labs.erase k })
          { d with label := k.name ++ s.off, value := t.value, names := t.names, units := t.units,
                   tabType := if k.detect = "numalf".toList then .numHeaderCom else tabTypeOf k.mix }
          (i + (m.toNat + 2 - k.nOffset)) (here.drop (m.toNat + 2 - k.nOffset))

/-- 552-571: the entry before the table is stored first for `NumAlf` and for tables with an
offset. -/
def labTable (N : Num) (n : Nat) (s : St N.F) (k : Kind) (d : Item N.F) (i : Nat) (line : Str)
    (rest : List Str) : Except RErr (Turn N.F) :=
  if k.detect = "numalf".toList then
    labTableAt N n (s.add d) k { label := [], value := d.value } (i + 1) rest
  else if 0 < k.nOffset then
    labTableAt N n (s.add { label := d.label ++ s.off, value := d.value, descr := d.descr }) k d i (line :: rest)
  else labTableAt N n s k d i (line :: rest)

/-- 601-609: a list of files.  With a count of zero, `i` is decremented and incremented: the same
line is read again. -/
def filTable (N : Num) (n : Nat) (s : St N.F) (k : Str × Str × Str) (d : Item N.F) (i : Nat)
    (here : List Str) : Except RErr (Turn N.F) :=
  match tabLines s.data (.var k.2.1) [] with
  | .error e => .error e
  | .ok m =>
    if m < 0 then .error .other
    else
      match parseFil (here.take m.toNat) m.toNat with
      | .error e => .error (.ofTable e)
      | .ok fs => finish n s { d with label := k.2.2 ++ s.off, value := .fil fs, tabType := .fil }
          (i + m.toNat) (here.drop m.toNat)

/-- the text compared with the detection lists (523) -/
def strValue (d : Item F) : Option Str :=
  match d.value with
  | .plain (.scalar (.str s)) => some s
  | _ => none

/-- `d['value'].lower() in NUMTAB_FROM_VAL_DETECT_L` and its index (523-525) -/
def valKind (s : St F) (d : Item F) : Option Kind :=
  match strValue d with
  | some t => s.vals.find? (fun k => k.detect == lower t)
  | none => none

/-- 522-633: tables, or the entry alone; `raw` is `labelRaw` -/
def tablePart (N : Num) (n : Nat) (s : St N.F) (raw : Str) (d : Item N.F) (i : Nat) (line : Str)
    (rest : List Str) : Except RErr (Turn N.F) :=
  match valKind s d with
  | some k => valTable N n s k d i (line :: rest)
  | none =>
    match s.labs.find? (fun k => k.detect == raw) with
    | some k => labTable N n s k d i line rest
    | none =>
      match filKinds.find? (fun k => k.1 == lower d.label) with
      | some k => filTable N n s k d i (line :: rest)
      | none => finish n s d (i + 1) rest

/-- the entry of one comment or key line inside a section (`parseFASTInputLine(line,i)`) -/
def lineItem (N : Num) (l : Str) : Except RErr (Item N.F) :=
  match parseLine N.toPyFloat false l with
  | .error e => .error (.ofLine e)
  | .ok d => .ok (.ofEntry d)

/-- the entries of several lines; running past the last line is an IndexError -/
def lineItems (N : Num) : Nat → List Str → Except RErr (List (Item N.F) × List Str)
  | 0, ls => .ok ([], ls)
  | _ + 1, [] => .error .other
  | k + 1, l :: ls =>
    match lineItem N l with
    | .error e => .error e
    | .ok d => match lineItems N k ls with
      | .error e => .error e
      | .ok (ds, r) => .ok (d :: ds, r)

/-- the airfoil reference point (484-489); the line being absent is an IndexError -/
def refPoint (N : Num) : List Str → Except RErr (List N.F × List Str)
  | [] => .error .other
  | l :: ls =>
    match words (cleanAfterChar (cleanLine l) '!') with
    | a :: b :: _ =>
      match N.parse a, N.parse b with
      | some x, some y => .ok ([x, y], ls)
      | _, _ => .error .wrongFormat
    | _ => .error .wrongFormat

/-- 479-507: coordinates of an airfoil; `s` already holds `NumCoords` -/
def coords (N : Num) (s : St N.F) (rest : List Str) : Except RErr (Turn N.F) :=
  match lineItems N 3 rest with
  | .error e => .error e
  | .ok (c1, r1) =>
    match refPoint N r1 with
    | .error e => .error e
    | .ok (pos, r2) =>
      match lineItems N 2 r2 with
      | .error e => .error e
      | .ok (c2, r3) =>
        let ref : Item N.F :=
          { label := "AirfoilRefPoint".toList, value := .plain (.list (pos.map .flt)) }
        match lookup s.data "NumCoords".toList with
        | some (.plain (.scalar (.int m))) =>
          if m < 1 then .error .unmodelled
          else
            match readTable N false (r3.take m.toNat) (m.toNat - 1) 1 0 with
            | .error e => .error e
            | .ok t =>
              .ok (.stop (s.data ++ c1 ++ [ref] ++ c2 ++
                [{ label := "AirfoilCoord".toList, value := t.value, names := t.names,
                   units := some ["(-)".toList, "(-)".toList], tabType := .numHeaderCom }]))
        | _ => .error .unmodelled

/-- what follows `numcoords` (467-507) -/
def coordPart (N : Num) (n : Nat) (s : St N.F) (raw : Str) (d : Item N.F) (i : Nat) (line : Str)
    (rest : List Str) : Except RErr (Turn N.F) :=
  match d.value with
  | .plain (.scalar (.str _)) => tablePart N n s raw d i line rest
  | .plain (.scalar (.int m)) =>
    if m ≤ 0 then tablePart N n s raw d i line rest else coords N (s.add d) rest
  | _ => .error .wrongFormat

/-- what follows `re` (509-514): `NumTabs` and the suffix of the next labels -/
def rePart (N : Num) (n : Nat) (s : St N.F) (raw : Str) (d : Item N.F) (i : Nat) (line : Str)
    (rest : List Str) : Except RErr (Turn N.F) :=
  match lookup s.data "NumTabs".toList with
  | some (.plain (.scalar (.int m))) =>
    let off := if 1 < m then '_' :: Nat.toDigits 10 (s.iTab + 1) else s.off
    tablePart N n { s with iTab := s.iTab + 1, off := off } raw { d with label := raw ++ off } i line rest
  | some (.plain (.scalar (.bool _))) => .error .unmodelled
  | some (.plain (.scalar (.flt _))) => .error .unmodelled
  | _ => .error .other

/-- 457-636: one line that is not a section -/
def linePart (N : Num) (n : Nat) (s : St N.F) (i : Nat) (line : Str) (rest : List Str) :
    Except RErr (Turn N.F) :=
  match parseLine N.toPyFloat s.allow line with
  | .error e => .error (.ofLine e)
  | .ok e =>
    let raw := lower e.label
    let d := { Item.ofEntry e with label := e.label ++ s.off }
    if raw = "kp_total".toList then tablePart N n { s with allow := true } raw d i line rest
    else if raw = "numcoords".toList then coordPart N n s raw d i line rest
    else if raw = "re".toList then rePart N n s raw d i line rest
    else tablePart N n s raw d i line rest

/-! ### sections (389-455) -/

/-- a character of `\w` -/
def isWordChar (c : Char) : Bool := c.isAlphanum || c == '_'

/-- `re.match(r'^\W*\w+', line).group(0).strip()` (394-398); `none`: no match,
`NotImplementedError` -/
def firstWord (line : Str) : Option Str :=
  let pre := line.takeWhile (fun c => !isWordChar c)
  let w := (line.dropWhile (fun c => !isWordChar c)).takeWhile isWordChar
  if w = [] then none else some (strip (pre ++ w))

/-- `re.sub(r'^\W*\w+\W*', '', line)` (399) on a line that matches -/
def remainder (line : Str) : Str :=
  (((line.dropWhile (fun c => !isWordChar c)).dropWhile isWordChar).dropWhile (fun c => !isWordChar c))

/-- the line of 418 -/
def endLine : Str :=
  "END of input file (the word \"END\" must appear in the first 3 columns of this last OutList line)".toList

/-- the line of 419 -/
def dashLine : Str := List.replicate 87 '-'

/-- the entries appended at 418-419, 433-434 -/
def endItems (N : Num) : Except RErr (List (Item N.F)) :=
  match lineItems N 2 [endLine, dashLine] with
  | .error e => .error e
  | .ok (ds, _) => .ok ds

/-- a line of nodal outputs follows (415) -/
def isNodalLine (l : Str) : Bool :=
  (match find "bldnd_bladesout".toList (lower l) with | some i => decide (0 < i) | none => false)
  || (match find "bldnd_bloutnd".toList (lower l) with | some i => decide (0 < i) | none => false)

/-- a list of channels follows (390-392) -/
def isOutSection (line : Str) : Bool :=
  hasInside line "ADDITIONAL OUTPUTS".toList || hasInside line "MESH-BASED OUTPUTS".toList
  || hasInside line "OUTPUT CHANNELS".toList

/-- the list of channels of SubDyn (421) -/
def isSDSection (line : Str) : Bool :=
  hasInside line "SSOUTLIST".toList || hasInside line "SDOUTLIST".toList

/-- 393-420 -/
def outSection (N : Num) (n : Nat) (s : St N.F) (i : Nat) (line : Str) (rest : List Str) :
    Except RErr (Turn N.F) :=
  match firstWord line with
  | none => .error .other
  | some w =>
    match parseOutList 0 rest with
    | .error e => .error (.ofLine e)
    | .ok chans =>
      let d : Item N.F :=
        { label := if s.nodal then w ++ "_Nodal".toList else w, descr := remainder line,
          tabType := .fil, value := .fil ([] :: chans) }
      let s := s.add d
      match rest.drop chans.length with
      | [] => .ok (.stop s.data)
      | l :: ls =>
        if (ls[1]?).any isNodalLine then
          linePart N n { s with nodal := true } (i + 1 + chans.length) l ls
        else match endItems N with
          | .error e => .error e
          | .ok ds => .ok (.stop (s.data ++ ds))

/-- 421-435 -/
def sdSection (N : Num) (s : St N.F) (line : Str) (rest : List Str) : Except RErr (Turn N.F) :=
  match lineItem N line with
  | .error e => .error e
  | .ok d =>
    match parseOutList 0 rest with
    | .error e => .error (.ofLine e)
    | .ok chans =>
      match endItems N with
      | .error e => .error e
      | .ok ds => .ok (.stop (s.data ++ [d] ++ chans.map Item.comment ++ ds))

/-- 436-450 -/
def stiffSection (N : Num) (n : Nat) (s : St N.F) (i : Nat) (line : Str) (rest : List Str) :
    Except RErr (Turn N.F) :=
  match lineItem N line with
  | .error e => .error e
  | .ok d =>
    if rest.length < 19 then .error .other
    else
      let s := (s.add d).add
        { label := "KDAdd".toList, tabType := .fil, value := .fil (rest.take 19) }
      match rest.drop 19 with
      | [] => .ok (.stop s.data)
      | l :: ls => linePart N n s (i + 20) l ls

/-- `np.array((' '.join(lines[i:i+6])).split()).astype(float).reshape(6,6)` (909, 912) -/
def matrix36 (N : Num) (ls : List Str) : Option (List N.F) :=
  match (words (joinWith [' '] (ls.take 6))).mapM N.parse with
  | none => none
  | some v => if v.length = 36 then some v else none

/-- the loop of `readBeamDynProps` (905-913): `k` sections; any error is a WrongFormatError -/
def beamSections (N : Num) : Nat → List Str → Option (List (N.F × List N.F × List N.F))
  | 0, _ => some []
  | _ + 1, [] => none
  | k + 1, l :: ls =>
    match N.parse l, matrix36 N ls, matrix36 N (ls.drop 7) with
    | some x, some K, some M => (beamSections N k (ls.drop 14)).map ((x, K, M) :: ·)
    | _, _, _ => none

/-- 451-455 and `readBeamDynProps` (897-922) -/
def beamSection (N : Num) (s : St N.F) (line : Str) (rest : List Str) : Except RErr (Turn N.F) :=
  match lineItem N line with
  | .error e => .error e
  | .ok d =>
    match tabLines (s.data ++ [d]) (.var "station_total".toList) [] with
    | .error e => .error e
    | .ok m =>
      if m < 0 then .error .other
      else match beamSections N m.toNat rest with
        | none => .error .wrongFormat
        | some secs =>
          .ok (.stop (s.data ++ [d, { label := "BeamProperties".toList, tabType := .beamdyn, value := .beam secs }]))

/-- one iteration (386-636) -/
def turn (N : Num) (n : Nat) (s : St N.F) (i : Nat) (line : Str) (rest : List Str) :
    Except RErr (Turn N.F) :=
  if isOutSection line then outSection N n s i line rest
  else if isSDSection line then sdSection N s line rest
  else if hasInside line "ADDITIONAL STIFFNESS".toList then stiffSection N n s i line rest
  else if hasInside line "DISTRIBUTED PROPERTIES".toList then beamSection N s line rest
  else linePart N n s i line rest

/-- the loop (386-636), for at most `fuel` iterations -/
def loop (N : Num) (n : Nat) : Nat → St N.F → Nat → List Str → Except RErr (List (Item N.F))
  | _, s, _, [] => .ok s.data
  | 0, _, _, _ :: _ => .error .fuel
  | fuel + 1, s, i, line :: rest =>
    match turn N n s i line rest with
    | .error e => .error e
    | .ok (.stop data) => .ok data
    | .ok (.go s i rest) => loop N n fuel s i rest

/-! ### AeroDyn 14 polars (840-895) -/

/-- one line of values (864-871) -/
def ad14Value (N : Num) (l : Str) : Except RErr (Item N.F) :=
  match words l with
  | [] => .error .other
  | w :: r =>
    match N.parse w with
    | none => .error .other
    | some x => .ok { label := joinWith [' '] r, value := .plain (.scalar (.flt x)), descr := joinWith [' '] r }

/-- column names of the polar (886-893); the third case gives no units -/
def ad14Names (ids : List Str) (nT cols : Nat) : List Str × Option (List Str) :=
  if cols = 1 + nT * 3 then
    ("Alpha".toList :: ids.flatMap (fun l => ["Cl", "Cd", "Cm"].map (fun c => c.toList ++ l)),
     some ("(deg)".toList :: List.replicate (3 * nT) "(-)".toList))
  else if cols = 1 + nT * 2 then
    ("Alpha".toList :: ids.flatMap (fun l => ["Cl", "Cd"].map (fun c => c.toList ++ l)),
     some ("(deg)".toList :: List.replicate (2 * nT) "(-)".toList))
  else ((List.range cols).map (fun j => "col".toList ++ Nat.toDigits 10 j), none)

/-- the rows up to the first blank line (874-879); rows of different lengths or with a text that
is not a number: ValueError; no row at all: IndexError at 886 -/
def ad14Rows (N : Num) (ls : List Str) : Except RErr (List (List N.F)) :=
  match (ls.takeWhile (fun l => !(words l).isEmpty)).mapM (fun l => (words l).mapM N.parse) with
  | none => .error .other
  | some [] => .error .other
  | some (r :: rs) => if rs.all (fun q => q.length == r.length) then .ok (r :: rs) else .error .other

/-- the file detected by `isAD14` (862-895) -/
def readAD14 (N : Num) (lines : List Str) : Except RErr (List (Item N.F)) :=
  let m : Int := match words (lines.getD 2 []) with | w :: _ => pyInt w | [] => 0
  if m < 0 then .error .unmodelled
  else
    match ((lines.drop 2).take 12).mapM (ad14Value N) with
    | .error e => .error e
    | .ok vs =>
      match ad14Rows N (lines.drop 14) with
      | .error e => .error e
      | .ok rows =>
        let nT := m.toNat
        let ids := if nT = 1 then [[]] else (words (lines.getD 3 [])).take nT
        let nu := ad14Names ids nT (rows.headD []).length
        .ok ([Item.comment (lines.getD 0 []), Item.comment (lines.getD 1 [])] ++ vs ++
          [{ label := "Polar".toList, value := .num rows, tabType := .numNoHeader, names := some nu.1, units := nu.2 }])

/-- `_read` (309-650) on the lines of the file -/
def readLines (N : Num) (fuel : Nat) (lines : List Str) : Except RErr (List (Item N.F)) :=
  match isExtPtfm lines with
  | .error e => .error (.ofLine e)
  | .ok true => .error .unmodelled
  | .ok false =>
    if isAD14 lines then readAD14 N lines
    else loop N lines.length fuel {} 0 lines

/-- `_read` on the text of the file -/
def readText (N : Num) (fuel : Nat) (text : Str) : Except RErr (List (Item N.F)) :=
  readLines N fuel (splitlines text)

/-! ### writing (653-734) -/

/-- exceptions of `toString`: `value` is `int(nan)`; `type` a `None` or a value of another type;
`unknown` the last branch (731); `unmodelled`: values of another type than the table says -/
inductive WErr where
  | value | type | unknown | unmodelled
deriving DecidableEq, Repr

/-- `'{:15s}'.format(s)` -/
def pad15 (s : Str) : Str := s ++ List.replicate (15 - s.length) ' '

/-- `' '.join(['{:15s}'.format(s) for s in names])` -/
def headerText (names : List Str) : Str := joinWith [' '] (names.map pad15)

/-- the rows of a numeric table with a format (702, 714) -/
def rowsText (f : α → Str) (rows : List (List α)) : Str :=
  joinWith ['\n'] (rows.map (fun r => joinWith ['\t'] (r.map f)))

/-- the rows of a `numHeader` table (702): `int(x)` may raise -/
def cellsText (N : Num) (rows : List (List N.F)) : Except WErr Str :=
  match rows.mapM (fun r => r.mapM N.cell) with
  | none => .error .value
  | some ts => .ok (rowsText id ts)

/-- `'{}'.format(x)` of a cell (710) -/
def showCell (N : Num) : Cell N.F → Str
  | .txt s => s
  | .num x => N.repr x

/-- 690-702 -/
def numText (N : Num) (names units : Option (List Str)) (rows : List (List N.F)) : Except WErr Str :=
  match cellsText N rows with
  | .error e => .error e
  | .ok t =>
    let head := match names with
      | none => []
      | some ns => headerText ns ++ (match units with | none => [] | some us => '\n' :: headerText us)
    let nl := if names.isSome then ['\n'] else []
    .ok (if rows.isEmpty then head else head ++ nl ++ t)

/-- 703-710 -/
def mixText (N : Num) (names units : Option (List Str)) (rows : List (List (Cell N.F))) : Except WErr Str :=
  match names with
  | none => .error .type
  | some ns =>
    let head := headerText ns ++ (match units with | none => [] | some us => '\n' :: headerText us)
    .ok (if rows.isEmpty then head else head ++ '\n' :: rowsText (showCell N) rows)

/-- 711-714 -/
def comText (N : Num) (names units : Option (List Str)) (rows : List (List N.F)) : Except WErr Str :=
  match names, units with
  | some ns, some us =>
    .ok ("! ".toList ++ headerText ns ++ ['\n'] ++ "! ".toList ++ headerText us ++ ['\n'] ++ rowsText N.e15 rows)
  | _, _ => .error .type

/-- `mat_tostring` (666-667) of the 36 terms -/
def matText (N : Num) (K : List N.F) : Str :=
  joinWith ['\n'] ((List.range 6).map (fun i =>
    "   ".toList ++ joinWith [' '] ((List.range 6).map (fun j => N.e24 (K.getD (6 * i + j) N.zero)))))

/-- `beamdyn_section_mat_tostring` (665-678) -/
def sectionText (N : Num) (x : N.F) (K M : List N.F) : Str :=
  N.f6 x ++ ['\n'] ++ matText N K ++ ['\n', '\n'] ++ matText N M ++ ['\n', '\n']

/-- 715-718; an empty list: IndexError (`type`) -/
def filItemText (label descr : Str) : List Str → Except WErr Str
  | [] => .error .type
  | v :: vs => .ok (filText v label descr vs)

/-- the text of one entry (682-731) -/
def itemText (N : Num) (d : Item N.F) : Except WErr Str :=
  if d.isComment then
    match d.value with
    | .plain v => .ok (entryText N.toPyFloat ⟨d.label, v, true, d.descr, 0⟩)
    | _ => .error .unmodelled
  else
    match d.tabType, d.value with
    | .notTab, .plain v => .ok (entryText N.toPyFloat ⟨d.label, v, false, d.descr, 0⟩)
    | .numHeader, .num rows => numText N d.names d.units rows
    | .mixHeader, .mix rows => mixText N d.names d.units rows
    | .numHeaderCom, .num rows => comText N d.names d.units rows
    | .fil, .fil fs => filItemText d.label d.descr fs
    | .beamdyn, .beam secs => .ok (secs.flatMap (fun s => sectionText N s.1 s.2.1 s.2.2))
    | .numNoHeader, _ => .error .unknown
    | _, _ => .error .unmodelled

/-- the test of 732 after the entry `j` of `len`: the loop over the BeamDyn sections reuses the
variable `i` (725) -/
def newlineAfter (len j : Nat) (d : Item F) : Bool :=
  match d.isComment, d.tabType, d.value with
  | false, .beamdyn, .beam (s :: secs) => decide ((s :: secs).length - 1 < len - 1)
  | _, _, _ => decide (j < len - 1)

/-- the loop 680-733 from entry `j` on -/
def toStringFrom (N : Num) (len : Nat) : Nat → List (Item N.F) → Except WErr Str
  | _, [] => .ok []
  | j, d :: ds =>
    match itemText N d with
    | .error e => .error e
    | .ok t =>
      match toStringFrom N len (j + 1) ds with
      | .error e => .error e
      | .ok r => .ok (t ++ (if newlineAfter len j d then ['\n'] else []) ++ r)

/-- `toString` (653-734) -/
def toString_ (N : Num) (data : List (Item N.F)) : Except WErr Str :=
  toStringFrom N data.length 0 data

end Verif.FastRead
