import Verif.Model.HawcAe
import Verif.Py.Bytes
import Mathlib.Algebra.Field.Defs
/-!
# HAWC2 and BHAWC result files: channels and samples

* `/repo/weio/wetb/hawc2/Hawc2io.py`: `_ReadSelFile` (60-165), `ReadBinary` (240-251), `ReadAscii`
  (254-259), `ReadAll` (293-307);
* `/repo/weio/hawc2_dat_file.py`: `_read` (37-51), `_write` (104-151).

Simplifications: numbers are the elements of a field, so there is no `nan` and no rounding; `float(..)`,
`int(..)`, `'%16.8e'` and `'{:.3f}'` are parameters.  The `.sel` file is given by its text, the `.dat` file by
its text and its bytes; which files belong to a name (217-237), the FLEX format and the HDF5 format are not
modelled.  Files without channels are `unmodelled`.
-/
namespace Verif.Hawc2Sel
open Verif.Py
open Verif.FastLine (showInt)

/-- `float(s)`, `int(s)`, `'%16.8e' % x`, `'{:.3f}'.format(x)` -/
structure Num (F : Type) where
  flt : Str → Option F
  int : Str → Option Int
  e8 : F → Str
  f3 : F → Str

/-- exceptions raised inside `_read`, and the `WrongFormatError` of `HAWC2DatFile` -/
inductive Err where
  | index
  | value
  | zeroDiv
  | exc
  | wrongFormat
  | unmodelled
deriving DecidableEq, Repr

/-- `self.FileFormat` (139, 161, 165) -/
inductive Format where
  | ascii
  | binary
  | bhawc
deriving DecidableEq, Repr

/-- what `_ReadSelFile` sets: `NrSc`, `NrCh`, `Time`, `t`, `ChInfo`, `FileFormat`, `ScaleFactor` -/
structure Head (F : Type) where
  nrSc : Int
  nrCh : Int
  time : F
  t : List F
  names : List Str
  units : List Str
  descr : List Str
  format : Format
  scale : List F
deriving DecidableEq

/-- the object: `data`, `info['attribute_names']`, `info['attribute_units']`, `info['attribute_descr']`, `bHawc`
(hawc2_dat_file.py:31-45) -/
structure Obj (F : Type) where
  data : List (List F)
  names : List Str
  units : List Str
  descr : List Str
  bhawc : Bool
deriving DecidableEq

/-- `fid.readlines()` of a text file, with the ends of the lines (84) -/
def keepLines (s : Str) : List Str :=
  let l := splitOn '\n' s
  l.dropLast.map (· ++ ['\n']) ++ (if l.getLastD [] = [] then [] else [l.getLastD []])

/-- `Lines[i]`, `temp[i]` -/
def nth (l : List Str) (i : Nat) : Except Err Str :=
  match l[i]? with
  | some s => .ok s
  | none => .error .index

/-- `s.lower().find(w)>=0` -/
def mentions (w s : Str) : Bool := (find w (lower s)).isSome

/-- `int(s)` -/
def intOf (N : Num F) (s : Str) : Except Err Int :=
  match N.int s with
  | some n => .ok n
  | none => .error .value

/-- `float(s)` -/
def fltOf (N : Num F) (s : Str) : Except Err F :=
  match N.flt s with
  | some x => .ok x
  | none => .error .value

/-- `np.linspace(0, time, n + 1)[1:]` (99, 149): a negative number of points is a ValueError -/
def timeVec [Field F] (n : Int) (time : F) : Except Err (List F) :=
  if n + 1 < 0 then .error .value
  else .ok ((List.range n.toNat).map (fun i : Nat => ((i : F) + 1) * time / (n.toNat : F)))

/-- 95-99, 145-149: number of scans, number of channels, time and time vector; `NrSc / Time` may divide by zero -/
def counts [Field F] [DecidableEq F] (N : Num F) (temp : List Str) : Except Err (Int × Int × F × List F) := do
  let nrSc ← intOf N (← nth temp 0)
  let nrCh ← intOf N (← nth temp 1)
  let time ← fltOf N (← nth temp 2)
  if time = 0 then .error .zeroDiv else
  let t ← timeVec nrSc time
  return (nrSc, nrCh, time, t)

/-- the last of the lines `lo` to `hi-1` which mentions a word, plus one (88-93, 101-106): IndexError if one of these
lines is missing, an Exception if no line mentions it -/
def findLine (lines : List Str) (w : Str) (is : List Nat) : Except Err Nat := do
  let hit ← is.mapM (fun i => do return (i, mentions w (← nth lines i)))
  match (hit.filter Prod.snd).getLast? with
  | some (i, _) => .ok (i + 1)
  | none => .error .exc

/-- `line.split(' '*n)` for a positive `n` (128): `acc` is the piece being read, reversed and without the `run`
spaces at its end -/
def splitSp (n : Nat) (acc : Str) (run : Nat) : Str → List Str
  | [] => [acc.reverse ++ List.replicate run ' ']
  | c :: s =>
    if c = ' ' then
      if run + 1 = n then acc.reverse :: splitSp n [] 0 s else splitSp n acc (run + 1) s
    else splitSp n (c :: (List.replicate run ' ' ++ acc)) 0 s

/-- `[sp.strip() for sp in l if len(sp.strip())>0]` (125, 128) -/
def pieces (l : List Str) : List Str := (l.map strip).filter (fun s => s ≠ [])

/-- the first of these lists that has two elements -/
def firstPair : List (List Str) → Option (Str × Str)
  | [] => none
  | [a, b] :: _ => some (a, b)
  | _ :: r => firstPair r

/-- 125-132: description and label -/
def twoParts (line : Str) : Option (Str × Str) :=
  firstPair (pieces (splitOn '\t' line) :: (List.range 13).map (fun k => pieces (splitSp (k + 2) [] 0 line)))

/-- the channel of a line of a BHAWC file, already stripped and not empty (117-136): name, unit and description -/
def bhawcLine (line : Str) : Except Err (Str × Str × Str) := do
  let sp := words line
  let num := sp.headD []
  let line := line.drop ((find num line).getD 0 + num.length + 1)
  let unit := sp.getLastD []
  let line := match find unit line with
    | some i => line.take i
    | none => line.dropLast
  match twoParts line with
  | some (d, n) => .ok (n, unit, d)
  | none => .error .exc

/-- 109-136: the lines of the channels -/
def bhawcChannels (lines : List Str) : Except Err (List (Str × Str × Str)) :=
  ((lines.map strip).filter (fun l => l ≠ [])).mapM bhawcLine

/-- `_ReadSelFile` of a BHAWC file (86-139) -/
def readBhawc [Field F] [DecidableEq F] (N : Num F) (lines : List Str) : Except Err (Head F) := do
  let i ← findLine lines "scans".toList [5, 6, 7, 8, 9]
  let (nrSc, nrCh, time, t) ← counts N (words (← nth lines i))
  let j ← findLine lines "channel".toList [5, 6, 7, 8, 9, 10, 11, 12]
  let chans ← bhawcChannels ((lines.drop j).take (nrCh + 1).toNat)
  return ⟨nrSc, nrCh, time, t, chans.map (·.1), chans.map (·.2.1), chans.map (·.2.2), .bhawc, []⟩

/-- the channel of a line of a HAWC2 file: the columns 12 to 43, 43 to 54 and the rest without its last character
(154-156): name, unit and description -/
def hawcLine (l : Str) : Str × Str × Str :=
  (strip ((l.drop 12).take 31), strip ((l.drop 43).take 11), strip ((l.drop 54).dropLast))

/-- `_ReadSelFile` of a HAWC2 file (140-165) -/
def readHawc [Field F] [DecidableEq F] (N : Num F) (lines : List Str) : Except Err (Head F) := do
  let temp := words (← nth lines 8)
  let (nrSc, nrCh, time, t) ← counts N temp
  let format ← nth temp 3
  let chans ← (List.range nrCh.toNat).mapM (fun i => do return hawcLine (← nth lines (i + 12)))
  if lower format = "binary".toList then
    if nrCh < 0 then .error .value else
    let scale ← (List.range nrCh.toNat).mapM (fun i => do fltOf N (← nth lines (i + 12 + nrCh.toNat + 2)))
    return ⟨nrSc, nrCh, time, t, chans.map (·.1), chans.map (·.2.1), chans.map (·.2.2), .binary, scale⟩
  else
    return ⟨nrSc, nrCh, time, t, chans.map (·.1), chans.map (·.2.1), chans.map (·.2.2), .ascii, []⟩

/-- `_ReadSelFile` (60-165) -/
def readSel [Field F] [DecidableEq F] (N : Num F) (sel : Str) : Except Err (Head F) := do
  let lines := keepLines sel
  if mentions "bhawc".toList (← nth lines 0) then readBhawc N lines else readHawc N lines

/-- `np.fromfile(fid, 'int16', n)` at byte `pos`: as many as there are, `n` at most (249) -/
def int16s (bytes : Bytes) (pos n : Nat) : List Int :=
  (rowsOf 2 (min n ((bytes.length - pos) / 2)) (bytes.drop pos)).map (unpackInt 2)

/-- `data[:, j] = ...` (249): a value is repeated, another number of values is a ValueError -/
def fillCol (n : Nat) (l : List F) : Except Err (List F) :=
  if l.length = n then .ok l
  else match l with
    | [x] => .ok (List.replicate n x)
    | _ => .error .value

/-- the rows of `n` numbers of columns -/
def rowsOfCols [Field F] (n : Nat) (cols : List (List F)) : List (List F) :=
  (List.range n).map (fun j => cols.map (fun c => c.getD j 0))

/-- `ReadBinary` of all channels (240-251) -/
def readBinary [Field F] (h : Head F) (bytes : Bytes) : Except Err (List (List F)) :=
  if h.nrSc < 0 then .error .value else do
  let cols ← (List.range h.nrCh.toNat).mapM (fun i =>
    fillCol h.nrSc.toNat ((int16s bytes (i * h.nrSc.toNat * 2) h.nrSc.toNat).map (fun x : Int => (x : F) * h.scale.getD i 0)))
  return rowsOfCols h.nrSc.toNat cols

/-- the part of a line before a comment -/
def noComment (l : Str) : Str := l.takeWhile (· ≠ '#')

/-- the numbers of a line in the first `n` columns -/
def numRow (N : Num F) (n : Nat) (l : Str) : Except Err (List F) :=
  if (words l).length < n then .error .value else ((words l).take n).mapM (fltOf N)

/-- `ReadAscii` of all channels: `np.loadtxt(.., usecols=range(0, NrCh)).reshape((NrSc, NrCh))` (254-259); `-1` stands
for any number of rows -/
def readAscii (N : Num F) (h : Head F) (text : Str) : Except Err (List (List F)) := do
  let lines := ((splitOn '\n' text).map noComment).filter (fun l => words l ≠ [])
  let rows ← lines.mapM (numRow N h.nrCh.toNat)
  if h.nrSc = -1 ∨ h.nrSc = (rows.length : Int) then .ok rows else .error .value

/-- `ReadAll` (293-307) -/
def readAll [Field F] (N : Num F) (h : Head F) (text : Str) (bytes : Bytes) : Except Err (List (List F)) :=
  if h.nrCh ≤ 0 then .error .unmodelled else
  match h.format with
  | .binary => readBinary h bytes
  | _ => readAscii N h text

/-- `HAWC2DatFile._read` without the last clauses (38-45) -/
def load [Field F] [DecidableEq F] (N : Num F) (sel text : Str) (bytes : Bytes) : Except Err (Obj F) := do
  let h ← readSel N sel
  let data ← readAll N h text bytes
  return ⟨data, h.names, h.units, h.descr, h.format == .bhawc⟩

/-- `HAWC2DatFile._read` (37-51): any exception becomes a `WrongFormatError` -/
def read [Field F] [DecidableEq F] (N : Num F) (sel text : Str) (bytes : Bytes) : Except Err (Obj F) :=
  match load N sel text bytes with
  | .ok o => .ok o
  | .error _ => .error .wrongFormat

/-! ## Writing -/

/-- `'{:ns}'.format(s)` -/
def padTo (n : Nat) (s : Str) : Str := s ++ List.replicate (n - s.length) ' '

/-- `u.replace('(','').replace(')','').replace('[','').replace(']','')` (132, 149) -/
def cleanUnit (u : Str) : Str := u.filter (fun c => !(c == '(' || c == ')' || c == '[' || c == ']'))

/-- the text of the `.dat` file: `np.savetxt(datfilename, self.data, fmt=b'%16.8e')` (118) -/
def datText (N : Num F) (rows : List (List F)) : Str :=
  HawcAe.unlines (rows.map (fun r => joinWith [' '] (r.map N.e8)))

/-- the channels of the `zip` of names, descriptions and units, numbered from one (131, 148) -/
def chanList (o : Obj F) : List (Nat × Str × Str × Str) :=
  ((o.names.zip (o.descr.zip o.units)).zipIdx).map (fun p => (p.2 + 1, p.1.1, p.1.2.1, p.1.2.2))

/-- the line of a channel of a BHAWC file (133) -/
def bhawcText (c : Nat × Str × Str × Str) : Str :=
  padTo 19 (showInt c.1) ++ '\t' :: (padTo 25 (c.2.2.1.take 26) ++ '\t' :: (padTo 25 (c.2.1.take 26) ++ '\t' :: padTo 25 ('[' :: (cleanUnit c.2.2.2 ++ [']']))))

/-- the line of a channel of a HAWC2 file (150) -/
def hawcText (c : Nat × Str × Str × Str) : Str :=
  padTo 12 (showInt c.1) ++ (padTo 31 (c.2.1.take 30) ++ (padTo 11 (cleanUnit c.2.2.2) ++ c.2.2.1))

/-- the underlines of a HAWC2 file -/
def rule : Str := List.replicate 120 '_'

/-- the text of the `.sel` file (120-151); `base` is the name of the `.dat` file without its directory.  `nScans`,
`nChannels` and `SimTime` (114-116) raise IndexError without rows or columns. -/
def selText (N : Num F) (base : Str) (o : Obj F) : Except Err Str :=
  match o.data.getLast? with
  | none => .error .index
  | some [] => .error .index
  | some (time :: rest) =>
    if o.bhawc then
      .ok (HawcAe.unlines ([
        "BHawC channel reference file (sel):".toList,
        "+===================== (Name) =================== (Time stamp) ========= (Path) ==========================================================+".toList,
        "Original BHAWC file    : NA.dat                    2001.01.01  00:00:00  C:\\".toList,
        "Channel reference file : NA.sel                    2001.01.01  00:00:00  C:\\".toList,
        "Result file            : NA.dat                    2001.01.01  00:00:00  C:\\".toList,
        "+=========================================================================================================================================+".toList,
        "Scans             \tChannels                      \tTime [sec]                \tCoordinate convention: Siemens".toList,
        padTo 19 (showInt o.data.length) ++ '\t' :: (padTo 25 (showInt (time :: rest).length) ++ '\t' :: padTo 25 (N.f3 time)),
        [],
        "Channel            \tVariable descriptions    \tLabels                   \tUnits                    ".toList] ++
        (chanList o).map bhawcText))
    else
      .ok (HawcAe.unlines ([
        rule,
        "  Version ID : NA".toList,
        "                                                            Time : 00:00:00".toList,
        "                                                            Date : 01:01.2001".toList,
        rule,
        "  Result file : ".toList ++ base,
        rule,
        "   Scans    Channels    Time [sec]      Format".toList,
        padTo 12 (showInt o.data.length) ++ (padTo 12 (showInt (time :: rest).length) ++ (padTo 16 (N.f3 time) ++ "ASCII".toList)),
        [],
        "Channel     Name                           Unit       Variable Description".toList,
        []] ++ (chanList o).map hawcText ++ [rule]))

end Verif.Hawc2Sel
