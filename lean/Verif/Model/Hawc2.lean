import Verif.Py.Str
import Mathlib.Data.Rat.Defs
/-!
# HAWC2 result files

* `/repo/weio/wetb/hawc2/Hawc2io.py`: `ReadAll` (291-305) and the caching reader
  `__call__` (309-342);
* `/repo/weio/hawc2_dat_file.py`: `_toDataFrame` (56-102).

Simplifications: samples are rationals; channel numbers are natural numbers (the
code does not support negative ones in its binary readers); the column data of
channel `i` (`ReadBinary`/`ReadAscii` of one channel) is a function of `i`.
-/
namespace Verif.Hawc2
open Verif.Py

/-! ## The caching channel reader (Hawc2io.py:309-342) -/

/-- a column of samples -/
abbrev Col := List ℚ

/-- `self.Iknown`, `self.Data` (a list of columns), Hawc2io.py:215-216 -/
structure Cache where
  known : List Nat
  data : List Col
deriving DecidableEq

/-- the state after `ReadHawc2(filename)` (Hawc2io.py:215-216) -/
def Cache.empty : Cache := ⟨[], []⟩

/-- `self.ReadAll(ChVec)` with a non-empty list: one column per channel
(Hawc2io.py:225-253, 291-305) -/
def readAll (chan : Nat → Col) (chVec : List Nat) : List Col := chVec.map chan

/-- `self.Data.any()`: some sample is not zero -/
def anyNonzero (d : List Col) : Bool := d.any (fun c => c.any (fun x => x ≠ 0))

/-- the loop `for i in ChVec` (Hawc2io.py:326-333): returns `Iknown`, `I1`, `I2` -/
def sortCh : List Nat → List Nat → List Nat → List Nat → List Nat × List Nat × List Nat
  | [], known, i1, i2 => (known, i1, i2)
  | i :: t, known, i1, i2 =>
    if i ∈ known then sortCh t known (i1 ++ [known.idxOf i]) i2
    else sortCh t (known ++ [i]) (i1 ++ [i1.length]) (i2 ++ [i])

/-- lines 334-341: read the new channels, extend `Data` -/
def extend (chan : Nat → Col) (data : List Col) (i2 : List Nat) : List Col :=
  if i2 = [] then data
  else if anyNonzero data then data ++ readAll chan i2
  else readAll chan i2

/-- `Data[:, tuple(I1)]` (line 342): `none` stands for the `IndexError` -/
def pick (data : List Col) (i1 : List Nat) : Option (List Col) := i1.mapM (fun j => data[j]?)

/-- outcome of a call -/
inductive Out where
  | none                    -- 'to high channel number', returns None (315-317)
  | raised                  -- an IndexError escapes
  | ok (cols : List Col)
deriving DecidableEq

/-- the list of channels a request stands for (Hawc2io.py:311-313) -/
def channels (nrCh : Nat) (req : List Nat) : List Nat := if req = [] then List.range nrCh else req

/-- `ReadHawc2.__call__(ChVec)` (Hawc2io.py:310-342) -/
def call (readOnly : Bool) (nrCh : Nat) (chan : Nat → Col) (s : Cache) (req : List Nat) : Cache × Out :=
  if req.any (fun i => nrCh ≤ i) then (s, .none)
  else
    let ch := channels nrCh req
    if readOnly then (s, .ok (readAll chan ch))
    else
      let (known, i1, i2) := sortCh ch s.known [] []
      let data := extend chan s.data i2
      (⟨known, data⟩, match pick data i1 with | some c => .ok c | none => .raised)

/-- a sequence of calls on the same object -/
def calls (readOnly : Bool) (nrCh : Nat) (chan : Nat → Col) : Cache → List (List Nat) → Cache × List Out
  | s, [] => (s, [])
  | s, r :: rs =>
    let (s1, o) := call readOnly nrCh chan s r
    let (s2, os) := calls readOnly nrCh chan s1 rs
    (s2, o :: os)

/-! ## Column names of the data frame (hawc2_dat_file.py:56-102) -/

/-- `s.replace(a, b)` for a non-empty `a`: occurrences are found from the left
and do not overlap.  `n` bounds the number of steps. -/
def replaceN (a b : Str) : Nat → Str → Str
  | 0, s => s
  | _ + 1, [] => []
  | n + 1, c :: s =>
    if a.isPrefixOf (c :: s) then b ++ replaceN a b n ((c :: s).drop a.length)
    else c :: replaceN a b n s

def replace (a b s : Str) : Str := replaceN a b (s.length + 1) s

/-- the characters of `[-a-zA-Z0-9_.]` -/
def mbdyChar (c : Char) : Bool :=
  c.isAlphanum || c == '-' || c == '_' || c == '.'

/-- `re.findall(r'Mbdy:([-a-zA-Z0-9_.]*) ', desc)` (line 65): at each place where
`Mbdy:` is found, the longest run of allowed characters, which has to be followed
by a space.  `n` bounds the number of steps. -/
def findMbdyN : Nat → Str → List Str
  | 0, _ => []
  | _ + 1, [] => []
  | n + 1, c :: s =>
    if "Mbdy:".toList.isPrefixOf (c :: s) then
      let t := (c :: s).drop 5
      let w := t.takeWhile mbdyChar
      match t.drop w.length with
      | ' ' :: u => w :: findMbdyN n u
      | _ => findMbdyN n s
    else findMbdyN n s

def findMbdy (desc : Str) : List Str := findMbdyN (desc.length + 1) desc

/-- the simplifications that do not depend on the description (lines 70-74) -/
def simplify (name : Str) : Str :=
  strip (replace "axisangle".toList "rot_".toList
    (strip (replace "Statepos".toList []
      (strip (replace "coo:global".toList ['g'] (replaceChar ' ' [] name))))))

/-- one pass of the loop (lines 61-93): the new name of a channel.  `rest desc` is
the part of the prefix built from element, node and position numbers (79-92). -/
def rename (rest : Str → Str) (name desc : Str) : Str :=
  let n := simplify name
  match findMbdy desc with
  | [m] => m ++ rest desc ++ strip (replace ("coo:".toList ++ m) ['b'] n)
  | _ => rest desc ++ n

/-- units without brackets (line 96) -/
def cleanUnit (u : Str) : Str := u.filter (fun c => !(c == '(' || c == ')' || c == '[' || c == ']'))

/-- `HAWC2DatFile._toDataFrame()` (56-102): returns the column names, and the new
content of `self.info['attribute_names']` — `names` is that very list, so the
assignments `names[i]=...` change it. -/
def columns (rest : Str → Str) (names descr : List Str) (units : Option (List Str)) :
    List Str × List Str :=
  let names' := List.zipWith (rename rest) names descr
  let cols := match units with
    | some us => List.zipWith (fun n u => n ++ "_[".toList ++ u ++ "]".toList) names' (us.map cleanUnit)
    | none => names'
  (cols, names')

/-- the column names given by `n+1` successive exports -/
def exports (rest : Str → Str) (descr : List Str) (units : Option (List Str)) :
    Nat → List Str → List (List Str)
  | 0, names => [(columns rest names descr units).1]
  | n + 1, names =>
    (columns rest names descr units).1 :: exports rest descr units n (columns rest names descr units).2

end Verif.Hawc2
