import Verif.Model.FastRead
import Verif.Model.FastTypes
import Verif.Model.FlexPro
import Mathlib.Algebra.Order.Field.Basic
/-!
# Data frames of FAST input files — `/repo/weio/fast_input_file.py:105-106, 753-827, 1359-1380, 1418-1473, 1590-1631, 1792-1815`

Items are those of `Model/FastRead`.  Simplifications
* exact arithmetic in a field with an order; `sin`, `cos` and `pi` are given by a `Trig`;
* a table without rows has as many columns as names;
* scalars of the file which are lists or tables, other than numbers, booleans and texts, give the error
  `unmodelled` when an array is multiplied with them, and so do texts in columns of tables used in
  arithmetic;
* `AD` blade files with several tables give `unmodelled` (the code adds three arrays to the dictionary).
-/
namespace Verif.FastFrame
open Verif.Py Verif.FastLine Verif.FastRead
open Verif.FastDict (Entry)
open Verif.FastTypes (fixedFormat)

/-- `np.sin`, `np.cos`, `np.pi` -/
structure Trig (F : Type) where
  sin : F → F
  cos : F → F
  pi : F

/-- a cell of a data frame -/
inductive DCell (F : Type) where
  | num (x : F)
  | nan
  | txt (s : Str)
deriving DecidableEq

/-- the label of a column: a text, or the number pandas gives to columns without names -/
inductive ColName where
  | name (s : Str)
  | idx (i : Nat)
deriving DecidableEq

/-- a data frame -/
structure Frame (F : Type) where
  cols : List ColName
  rows : List (List (DCell F))
deriving DecidableEq

/-- exceptions -/
inductive DErr where
  | key | value | type | index | unmodelled
deriving DecidableEq, Repr

/-- what `_toDataFrame` returns: a data frame, or a dictionary of data frames -/
inductive Out (F : Type) where
  | one (f : Frame F)
  | dict (fs : List (Str × Frame F))
deriving DecidableEq

/-- `u.replace('(','[').replace(')',']')` (766) -/
def unitText (u : Str) : Str := u.map (fun c => if c = '(' then '[' else if c = ')' then ']' else c)

/-- the column labels of a table (763-766); `none`: no names are passed to pandas.  With units and
without names `zip` raises a TypeError. -/
def tableCols (names units : Option (List Str)) : Except DErr (Option (List Str)) :=
  match units with
  | none => .ok names
  | some us =>
    match names with
    | none => .error .type
    | some ns => .ok (some ((ns.zip us).map (fun cu => cu.1 ++ '_' :: unitText cu.2)))

/-- `pd.DataFrame(data=Val,columns=Cols)` (804): another number of labels than of columns raises a
ValueError -/
def mkFrame (cols : Option (List Str)) (width : Nat) (rows : List (List (DCell F))) : Except DErr (Frame F) :=
  match cols with
  | none => .ok ⟨(List.range width).map .idx, rows⟩
  | some cs => if cs.length = width then .ok ⟨cs.map .name, rows⟩ else .error .value

/-- the number of columns of an array read with these names -/
def widthOf (names : Option (List Str)) : List (List α) → Nat
  | [] => (names.getD []).length
  | r :: _ => r.length

/-- a scalar of the file in an array expression -/
def number [Field F] : FVal F → Except DErr F
  | .plain (.scalar (.int n)) => .ok n
  | .plain (.scalar (.flt x)) => .ok x
  | .plain (.scalar (.bool b)) => .ok (if b then 1 else 0)
  | .plain (.scalar (.str _)) => .error .type
  | _ => .error .unmodelled

/-- `self[key]` as a number -/
def scalar [Field F] (data : List (Item F)) (key : Str) : Except DErr F :=
  match lookup data key with
  | none => .error .key
  | some v => number v

/-- the names of the coefficients of a mode, e.g. `TwFAM1Sh(2)` to `TwFAM1Sh(6)` -/
def coefKeys (pre : Str) : List Str :=
  ["(2)".toList, "(3)".toList, "(4)".toList, "(5)".toList, "(6)".toList].map (pre ++ ·)

/-- the five coefficients of a mode (776-780, 1364-1368) -/
def coefs [Field F] (data : List (Item F)) (pre : Str) : Except DErr (List F) := (coefKeys pre).mapM (scalar data)

/-- `x**2 * c2 + x**3 * c3 + x**4 * c4 + x**5 * c5 + x**6 * c6` (776-780, 1364-1368) -/
def mode [Field F] (cs : List F) (x : F) : F :=
  match cs with
  | [c2, c3, c4, c5, c6] => x ^ 2 * c2 + x ^ 3 * c3 + x ^ 4 * c4 + x ^ 5 * c5 + x ^ 6 * c6
  | _ => 0

/-- the prefixes of the modes of a tower file (776-795) -/
def towerModes : List Str := ["TwFAM1Sh".toList, "TwFAM2Sh".toList, "TwSSM1Sh".toList, "TwSSM2Sh".toList]

/-- the labels of the modes of a tower file (797) -/
def towerCols : List Str :=
  ["ShapeForeAft1_[-]".toList, "ShapeForeAft2_[-]".toList, "ShapeSideSide1_[-]".toList, "ShapeSideSide2_[-]".toList]

/-- `self.getIDSafe('TwFAM1Sh(2)')>0` (772, 214-221) -/
def isTower (data : List (Item F)) : Bool :=
  match data.findIdx? (fun d => lower d.label == lower "TwFAM1Sh(2)".toList) with
  | some i => 0 < i
  | none => false

/-- the rows with the modes of the tower (774-796); `Val[:,0]` of a table without columns raises an
IndexError -/
def addModes [Field F] (data : List (Item F)) (rows : List (List F)) : Except DErr (List (List F)) := do
  if rows.any List.isEmpty then .error .index else
  let cs ← towerModes.mapM (coefs data)
  return rows.map (fun r => r ++ cs.map (fun c => mode c (r.headD 0)))

/-- a cell of a `mix` table -/
def ofCell : Cell F → DCell F
  | .txt s => .txt s
  | .num x => .num x

/-- one numeric table (761-804); `none`: no data frame is made -/
def numItem [Field F] (data : List (Item F)) (d : Item F) (rows : List (List F)) : Except DErr (Option (Frame F)) := do
  let cols ← tableCols d.names d.units
  let w := widthOf d.names rows
  if isTower data then do
    let rows ← addModes data rows
    if d.label = "DampingCoeffs".toList then return none else
    match cols with
    | none => .error .type
    | some cs => some <$> mkFrame (some (cs ++ towerCols)) (w + 4) (rows.map (·.map .num))
  else
    if d.label = "DampingCoeffs".toList then return none else
    some <$> mkFrame cols w (rows.map (·.map .num))

/-- one table of texts and numbers (761-804) -/
def mixItem (data : List (Item F)) (d : Item F) (rows : List (List (Cell F))) : Except DErr (Option (Frame F)) := do
  let cols ← tableCols d.names d.units
  if isTower data then .error .unmodelled else
  if d.label = "DampingCoeffs".toList then return none else
  some <$> mkFrame cols (widthOf d.names rows) (rows.map (·.map ofCell))

/-- `'K{}{}'.format(i+1,j+1)` with `i`, `j` below 6 (815, 816) -/
def entryName (c : Char) (i j : Nat) : Str := [c, Nat.digitChar (i + 1), Nat.digitChar (j + 1)]

/-- the labels of the span, of the stiffness and of the mass terms (814-816) -/
def beamNames : List Str :=
  "Span".toList :: ((List.range 6).flatMap (fun i => (List.range 6).map (entryName 'K' i)) ++
    (List.range 6).flatMap (fun i => (List.range 6).map (entryName 'M' i)))

/-- `IMain` (819) -/
def iMain : List Nat := 0 :: ((List.range 6).map (fun i => i * 6 + i + 1) ++ (List.range 6).map (fun i => i * 6 + i + 37))

/-- `IOrg` (820) -/
def iOrg : List Nat := iMain ++ (List.range 73).filter (fun i => i ∉ iMain)

/-- a list of elements `[L[i] for i in IOrg]` (821, 822) -/
def pick (l : List α) : List α := iOrg.filterMap (l[·]?)

/-- BeamDyn sections (805-824): span, stiffness and mass terms, those of the diagonal first -/
def beamItem (sections : List (F × List F × List F)) : Frame F :=
  ⟨(pick beamNames).map .name, sections.map (fun s => (pick (s.1 :: (s.2.1 ++ s.2.2))).map .num)⟩

/-- the data frame of one item (760-824); `none`: none is made -/
def itemFrame [Field F] (data : List (Item F)) (d : Item F) : Except DErr (Option (Frame F)) :=
  match d.tabType, d.value with
  | .notTab, _ => .ok none
  | .fil, _ => .ok none
  | .beamdyn, .beam ss => .ok (some (beamItem ss))
  | .beamdyn, _ => .error .unmodelled
  | _, .num rows => numItem data d rows
  | _, .mix rows => mixItem data d rows
  | _, _ => .error .unmodelled

/-- the loop over `self.data` (757-824) -/
def framesFrom [Field F] (data : List (Item F)) : List (Item F) → List (Str × Frame F) → Except DErr (List (Str × Frame F))
  | [], dfs => .ok dfs
  | d :: ds, dfs => do
    match ← itemFrame data d with
    | none => framesFrom data ds dfs
    | some f => framesFrom data ds (FlexPro.setKey dfs d.label f)

/-- one data frame is returned instead of a dictionary of one (825-827, 1629-1631) -/
def unpack : List (Str × Frame F) → Out F
  | [f] => .one f.2
  | fs => .dict fs

/-- `FASTInputFileBase._toDataFrame` (756-827) -/
def baseFrames [Field F] (data : List (Item F)) : Except DErr (Out F) := unpack <$> framesFrom data data []

/-- `df[name].values` of a column of numbers; several columns of this name raise a ValueError in the
expressions of the code -/
def column (f : Frame F) (c : Str) : Except DErr (List F) :=
  match f.cols.findIdx? (· = .name c) with
  | none => .error .key
  | some j =>
    if ColName.name c ∈ f.cols.drop (j + 1) then .error .value else
    f.rows.mapM (fun r => match r[j]? with
      | some (DCell.num x) => .ok x
      | _ => .error .unmodelled)

/-- `df[name] = values` with one value for each row: the column is replaced, or added behind the others -/
def setCol (f : Frame F) (c : Str) (vs : List (DCell F)) : Except DErr (Frame F) :=
  if vs.length ≠ f.rows.length then .error .value else
  match f.cols.findIdx? (· = .name c) with
  | none => .ok ⟨f.cols ++ [.name c], f.rows.zipWith (fun r v => r ++ [v]) vs⟩
  | some _ => .ok ⟨f.cols, f.rows.zipWith (fun r v => r.zipWith (fun x n => if n = ColName.name c then v else x) f.cols) vs⟩

/-- several columns are set -/
def setCols (f : Frame F) : List (Str × List (DCell F)) → Except DErr (Frame F)
  | [] => .ok f
  | (c, vs) :: t => do setCols (← setCol f c vs) t

/-- `EDBladeFile._toDataFrame` (1359-1380) -/
def edBladeFrames [Field F] (data : List (Item F)) : Except DErr (Out F) := do
  match ← baseFrames data with
  | .dict _ => .error .key
  | .one f => do
    let x ← column f "BlFract_[-]".toList
    let c1 ← coefs data "BldFl1Sh".toList
    let c2 ← coefs data "BldFl2Sh".toList
    let c3 ← coefs data "BldEdgSh".toList
    .one <$> setCols f [("ShapeFlap1_[-]".toList, x.map (.num ∘ mode c1)), ("ShapeFlap2_[-]".toList, x.map (.num ∘ mode c2)),
      ("ShapeEdge1_[-]".toList, x.map (.num ∘ mode c3))]

/-- `np.linspace(0.5, 0.25, n)` at index `i` (1464) -/
def acRoot [Field F] (n i : Nat) : F := 1 / 2 + i * ((1 / 4 - 1 / 2) / (n - 1 : Nat))

/-- `ACloc` (1462-1464) for `len` nodes: `n` is 15% of them, rounded down -/
def acLoc [Field F] (len : Nat) : List F :=
  (List.range len).map (fun i => if i < len * 3 / 20 then acRoot (len * 3 / 20) i else 1 / 4)

/-- `ADBladeFile._toDataFrame` (1418-1473) -/
def adBladeFrames [Field F] (T : Trig F) (data : List (Item F)) : Except DErr (Out F) := do
  let df ← baseFrames data
  match lookup data "BldAeroNodes".toList with
  | none => .error .key
  | some (.num rows) =>
    if rows.any (·.length < 6) then .error .index else
    match df with
    | .dict _ => .error .unmodelled
    | .one f =>
      let ac : List F := acLoc rows.length
      let off (g : F → F) (r : List F) (a : F) : F := r.getD 5 0 * (1 / 2 - a) * g (r.getD 4 0 * T.pi / 180)
      .one <$> setCols f [
        ("c2_Crv_Approx_[m]".toList, (rows.zipWith (fun r a => r.getD 1 0 + off T.sin r a) ac).map .num),
        ("c2_Swp_Approx_[m]".toList, (rows.zipWith (fun r a => r.getD 2 0 + off T.cos r a) ac).map .num),
        ("AC_Approx_[-]".toList, ac.map .num)]
  | some _ => .error .unmodelled

/-- `labOffset` (1596-1600) -/
def labOffset (k : Str) : Str :=
  match splitOn '_' k with
  | [_, b] => '_' :: b
  | _ => []

/-- `alpha[i]<a` -/
def below [LT F] [DecidableLT F] (alpha : List F) (a : F) (i : Nat) : Bool :=
  match alpha[i]? with
  | some x => decide (x < a)
  | none => false

/-- `np.where(alpha<a)[0][-1]` (1619-1621); `none`: IndexError -/
def lastBefore [LT F] [DecidableLT F] (alpha : List F) (a : F) : Option Nat :=
  ((List.range alpha.length).filter (below alpha a)).getLast?

/-- `CnPoints` (1617-1624) after the assignments for the indices `is` -/
def points (cn : List F) (is : List Nat) : List (DCell F) :=
  cn.mapIdx (fun j x => if is.any (fun i => i = j ∨ i + 1 = j) then .num x else .nan)

/-- the columns added to one data frame of a polar file (1601-1627); an exception on 1618-1625 means that
the last column is not added -/
def polarFrame [Field F] [LinearOrder F] (T : Trig F) (data : List (Item F)) (off : Str) (f : Frame F) :
    Except DErr (Frame F) := do
  let deg := fun (x : F) => x * T.pi / 180
  let alpha ← (·.map deg) <$> column f "Alpha_[deg]".toList
  let cl ← column f "Cl_[-]".toList
  let cd ← column f "Cd_[-]".toList
  let cd0 ← scalar data ("Cd0".toList ++ off)
  let at_ := fun (g : F → F → F → F) => (alpha.zip (cl.zip cd)).map (fun p => g p.1 p.2.1 p.2.2)
  let cn1 := at_ (fun a l d => l * T.cos a + (d - cd0) * T.sin a)
  let cn := at_ (fun a l d => l * T.cos a + d * T.sin a)
  let f ← setCol f "Cn_[-]".toList (cn.map .num)
  let f ← setCol f "Cn_Cd0off_[-]".toList (cn1.map .num)
  let slope ← scalar data ("C_nalpha".toList ++ off)
  let a0 ← scalar data ("alpha0".toList ++ off)
  let f ← setCol f "Cn_pot_[-]".toList (alpha.map (fun a =>
    if a < deg (-20) ∨ deg 30 < a then .nan else .num (slope * (a - deg a0))))
  match scalar data ("alpha2".toList ++ off), scalar data ("alpha1".toList ++ off) with
  | .ok a2, .ok a1 =>
    match lastBefore alpha (deg a2), lastBefore alpha (deg a1), lastBefore alpha (deg a0) with
    | some i2, some i1, some i0 => setCol f "Cn_012_[-]".toList (points cn [i2, i1, i0])
    | _, _, _ => return f
  | _, _ => return f

/-- `ADPolarFile._toDataFrame` (1590-1631) -/
def adPolarFrames [Field F] [LinearOrder F] (T : Trig F) (data : List (Item F)) : Except DErr (Out F) := do
  let dfs := match ← baseFrames data with
    | .one f => [("AFCoeff".toList, f)]
    | .dict fs => fs
  let fs ← dfs.mapM (fun kf => do return (kf.1, ← polarFrame T data (labOffset kf.1) kf.2))
  return unpack fs

/-- `'{:03d}'.format(n)` (1796) -/
def pad3 (n : Nat) : Str := List.replicate (3 - (Nat.toDigits 10 n).length) '0' ++ Nat.toDigits 10 n

/-- the labels of the loads (1795, 1796) -/
def loadCols (nDOF : Nat) : List Str :=
  ["Time_[s]".toList, "InpF_Fx_[N]".toList, "InpF_Fy_[N]".toList, "InpF_Fz_[N]".toList, "InpF_Mx_[Nm]".toList,
    "InpF_My_[Nm]".toList, "InpF_Mz_[Nm]".toList] ++
  (List.range nDOF).map (fun i => "CBF_".toList ++ pad3 (i + 1) ++ "_[-]".toList)

/-- `ExtPtfmFile._toDataFrame` (1792-1815); simplification: `nDOF` is an integer which is not negative -/
def extPtfmFrames (data : List (Item F)) : Except DErr (Out F) :=
  match lookup data "nDOF".toList with
  | none => .error .key
  | some (.plain (.scalar (.int n))) =>
    if n < 0 then .error .unmodelled else
    match lookup data "Loading".toList with
    | none => .error .key
    | some (.num rows) =>
      .one <$> mkFrame (some ((loadCols n.toNat).take (n.toNat + 1))) (widthOf none rows) (rows.map (·.map .num))
    | some _ => .error .unmodelled
  | some _ => .error .unmodelled

/-- an item without its table -/
def entryOf (d : Item F) : Entry (FVal F) := ⟨d.label, d.value, d.isComment, d.descr, 0⟩

/-- `FASTInputFile.toDataFrame` (105-106): of the class chosen for the data (67-97) -/
def toDataFrame [Field F] [LinearOrder F] (T : Trig F) (module_ : Option Str) (data : List (Item F)) : Except DErr (Out F) :=
  match fixedFormat module_ (data.map entryOf) with
  | .base => baseFrames data
  | .edBlade => edBladeFrames data
  | .adBlade => adBladeFrames T data
  | .adPolar => adPolarFrames T data
  | .extPtfm => extPtfmFrames data

end Verif.FastFrame
