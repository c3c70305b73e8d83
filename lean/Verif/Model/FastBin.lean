import Verif.Py.Bytes
/-!
# OpenFAST binary output — `/repo/weio/fast_output_file.py:194-490`

`load_binary_output` (with `use_buffer=True`, the only way it is called in
weio), `writeDataFrame` and `writeBinary`.

Floating point is a parameter `FloatSys`: the operations used by the code,
`np.single`, and the `struct` formats `f`/`d`.  No law is assumed here.
Simplifications: little-endian; `int(a/b)` on non-negative integers is integer
division (exact below 2^53); numpy min/max of NaN not special-cased.
-/
namespace Verif.FastBin
open Verif.Py

/-- the floating point operations used by `load_binary_output`/`writeBinary`. -/
structure FloatSys where
  F : Type
  add : F → F → F
  sub : F → F → F
  mul : F → F → F
  div : F → F → F
  le : F → F → Bool
  isNaN : F → Bool
  ofInt : Int → F
  /-- conversion to an integer, towards zero -/
  trunc : F → Int
  /-- `np.single` -/
  single : F → F
  enc32 : F → Bytes
  dec32 : Bytes → F
  enc64 : F → Bytes
  dec64 : Bytes → F

inductive Err where
  | structError      -- struct.error (fast_output_file.py:212, 469-486)
  | zeroDivision     -- fast_output_file.py:225, 227, 229
  | badFileID        -- Exception 'FileID not supported'   :263
  | shortRead        -- Exception 'Read only ...'          :244
  | negativeSize     -- np.zeros with a negative size      :231, 284
  | indexError       -- chanUnits[0][0] :413, time[1] :430
  | noTime           -- '`Time` needs to be present'       :423
  | timeNotFirst     -- '`Time` needs to be the first'     :425
  | unboundLocal     -- `unit` used before assignment      :385
deriving Repr, DecidableEq

/-! ## Reading -/

/-- reading from an open binary file: remaining bytes ↦ result and rest. -/
def Reader (α : Type) := Bytes → Except Err (α × Bytes)

instance : Monad Reader where
  pure a := fun bs => .ok (a, bs)
  bind p f := fun bs => match p bs with
    | .ok (a, rest) => f a rest
    | .error e => .error e

def Reader.fail (e : Err) : Reader α := fun _ => .error e

/-- `fread(fid, n, type)` (fast_output_file.py:210-212): `n` items of `w` bytes,
decoded by `dec`.  `struct.unpack` fails if the file is too short.  For `n < 0`
Python reads the whole rest and unpacks it with an empty format. -/
def fread (w : Nat) (dec : Bytes → α) (n : Int) : Reader (List α) := fun bs =>
  if n < 0 then
    if bs = [] then .ok ([], []) else .error .structError
  else
    if (bs.take (w * n.toNat)).length = w * n.toNat then
      .ok ((rowsOf w n.toNat (bs.take (w * n.toNat))).map dec, bs.drop (w * n.toNat))
    else .error .structError

/-- `fread(fid, 1, type)[0]` -/
def fread1 (w : Nat) (dec : Bytes → α) : Reader α := fun bs =>
  if (bs.take w).length = w then .ok (dec (bs.take w), bs.drop w) else .error .structError

/-- `GoodBufferSize = 4096*40` (fast_output_file.py:226) -/
def goodBufferSize : Nat := 163840

/-- `Buffer.reshape(-1, nCols)` (fast_output_file.py:240) -/
def reshape (nCols : Nat) (l : List α) : Option (List (List α)) :=
  if l.length % nCols = 0 then some (rowsOf nCols (l.length / nCols) l) else none

/-- `data[a:a+k, nOff:nOff+nCols] = Buffer` (fast_output_file.py:241): rows
`a .. a+k-1` keep their first `nOff` entries.  `none`: shapes do not match. -/
def assignRows (nOff a k : Nat) (data buf : List (List α)) : Option (List (List α)) :=
  if ((data.drop a).take k).length = buf.length then
    some (data.take a ++ List.zipWith (fun old new => old.take nOff ++ new) ((data.drop a).take k) buf
      ++ data.drop (a + k))
  else none

/-- the `while nIntRead<n` loop (fast_output_file.py:236-243).  Any exception
inside is re-raised as another one (:244), `shortRead`.  `fuel` bounds the
number of iterations. -/
def bufferLoop (w : Nat) (dec : Bytes → α) (n nCols nOff bufSize : Nat) :
    Nat → Nat → Nat → List (List α) → Reader (List (List α))
  | 0, _, _, _ => Reader.fail .shortRead
  | fuel + 1, nIntRead, nLinesRead, data => fun bs =>
    if nIntRead < n then
      let nIntToRead := min (n - nIntRead) bufSize
      let nLinesToRead := nIntToRead / nCols
      match fread w dec nIntToRead bs with
      | .error _ => .error .shortRead
      | .ok (vals, rest) =>
        match reshape nCols vals with
        | none => .error .shortRead
        | some buf =>
          match assignRows nOff nLinesRead nLinesToRead data buf with
          | none => .error .shortRead
          | some data' =>
            bufferLoop w dec n nCols nOff bufSize fuel (nIntRead + nIntToRead)
              (nLinesRead + nLinesToRead) data' rest
    else .ok (data, bs)

/-- `freadRowOrderTableBuffered` (fast_output_file.py:210-245), `zero` the
initial content of the table. -/
def freadTable (w : Nat) (dec : Bytes → α) (zero : α) (n : Int) (nCols nOff : Nat) :
    Reader (List (List α)) := fun bs =>
  if nCols = 0 then .error .zeroDivision                       -- :225
  else
    let nLinesPerBuffer := goodBufferSize / nCols
    let bufSize := nCols * nLinesPerBuffer
    if bufSize = 0 then .error .zeroDivision                   -- :229
    else if n ≤ -(nCols : Int) then .error .negativeSize       -- :231 (int(n/nCols) < 0)
    else
      let nLines := n.toNat / nCols
      bufferLoop w dec n.toNat nCols nOff bufSize (n.toNat + 1) 0 0
        (List.replicate nLines (List.replicate (nCols + nOff) zero)) bs

/-- what `load_binary_output` returns (fast_output_file.py:347-353) -/
structure Loaded (F : Type) where
  fileID : Int
  description : Str
  names : List Str
  units : List Str
  data : List (List F)

/-- `s[1:-1]` -/
def dropEnds (s : Str) : Str := (s.drop 1).dropLast

/-- the `for iChan in range(NumOutChans+1)` loops (fast_output_file.py:293-301) -/
def readNames (lenName : Int) : Nat → Reader (List Str)
  | 0 => pure []
  | m + 1 => do
    let b ← fread 1 (fun bs => (bs.map unpackChar)) lenName
    let rest ← readNames lenName m
    pure (strip b.flatten :: rest)

/-- Scaling of one row (fast_output_file.py:334-338). -/
def scaleRow (S : FloatSys) (scl off row : List S.F) : List S.F :=
  List.zipWith (fun (so : S.F × S.F) x =>
      if S.isNaN so.1 && S.isNaN so.2 then S.ofInt 0 else S.div (S.sub x so.2) so.1)
    (scl.zip off) row

/-- Replacing the first column by the time and scaling the others
(fast_output_file.py:332-340). -/
def finish (S : FloatSys) (time scl off : List S.F) (data : List (List S.F)) : List (List S.F) :=
  List.zipWith (fun t row => t :: scaleRow S scl off (row.drop 1)) time data

/-- `ColScl` (fast_output_file.py:279-283): `np.ones` of a negative size raises -/
def readScl (S : FloatSys) (fileID numOut : Int) : Reader (List S.F) :=
  if fileID = 3 then
    (if numOut < 0 then Reader.fail .negativeSize else pure (List.replicate numOut.toNat (S.ofInt 1)))
  else fread 4 S.dec32 numOut

/-- `ColOff` (fast_output_file.py:279-284) -/
def readOff (S : FloatSys) (fileID numOut : Int) : Reader (List S.F) :=
  if fileID = 3 then pure (List.replicate numOut.toNat (S.ofInt 0)) else fread 4 S.dec32 numOut

/-- `load_binary_output(filename)` on the bytes of the file
(fast_output_file.py:194-353). -/
def load (S : FloatSys) : Reader (Loaded S.F) := do
  let fileID ← fread1 2 (unpackInt 2)
  if ¬ (fileID = 1 ∨ fileID = 2 ∨ fileID = 3 ∨ fileID = 4) then Reader.fail .badFileID else
  let lenName ← if fileID = 4 then fread1 2 (unpackInt 2) else pure 10
  let numOut ← fread1 4 (unpackInt 4)
  let nt ← fread1 4 (unpackInt 4)
  let a ← fread1 8 S.dec64          -- TimeScl or TimeOut1
  let b ← fread1 8 S.dec64          -- TimeOff or TimeIncr
  let scl ← readScl S fileID numOut
  let off ← readOff S fileID numOut
  let lenDesc ← fread1 4 (unpackInt 4)
  let desc ← fread 1 (fun bs => bs.map unpackChar) lenDesc
  let names ← readNames lenName (numOut + 1).toNat
  let units ← readNames lenName (numOut + 1).toNat
  let packedTime ← if fileID = 1 then fread 4 (unpackInt 4) nt else pure []
  let data ← if fileID = 3 then freadTable 8 S.dec64 (S.ofInt 0) (nt * numOut) numOut.toNat 1
    else freadTable 2 (fun bs => S.ofInt (unpackInt 2 bs)) (S.ofInt 0) (nt * numOut) numOut.toNat 1
  let time := if fileID = 1 then packedTime.map (fun p => S.div (S.sub (S.ofInt p) b) a)
    else (List.range nt.toNat).map (fun (i : Nat) => S.add a (S.mul b (S.ofInt (i : Int))))
  pure { fileID := fileID, description := strip desc.flatten, names := names,
         units := units.map dropEnds, data := finish S time scl off data }

/-! ## Writing -/

/-- a rectangular array: `np.shape(channels) = (rows.length, nCols)` -/
structure Table (F : Type) where
  nCols : Nat
  rows : List (List F)

/-- 1-character-or-more test and first character: `chanUnits[0][0]`
(fast_output_file.py:413). -/
def firstUnitChar (units : List Str) : Option Char :=
  match units with
  | (c :: _) :: _ => some c
  | _ => none

/-- `['('+u+')' for u in chanUnits]` unless the first one starts with `(`
(fast_output_file.py:413-414) -/
def fixUnits (units : List Str) : Except Err (List Str) :=
  match firstUnitChar units with
  | none => .error .indexError
  | some c => .ok (if c = '(' then units else units.map (fun u => '(' :: u ++ [')']))

/-- values of column `j` -/
def column (S : FloatSys) (t : Table S.F) (j : Nat) : List S.F :=
  t.rows.map (fun r => r.getD j (S.ofInt 0))

/-- `np.min(..., axis=0)` for one column -/
def minOf (S : FloatSys) : List S.F → S.F
  | [] => S.ofInt 0
  | x :: xs => xs.foldl (fun a b => if S.le a b then a else b) x

/-- `np.max(..., axis=0)` for one column -/
def maxOf (S : FloatSys) : List S.F → S.F
  | [] => S.ofInt 0
  | x :: xs => xs.foldl (fun a b => if S.le b a then a else b) x

/-- `x == 0` on floats -/
def isZero (S : FloatSys) (x : S.F) : Bool := S.le x (S.ofInt 0) && S.le (S.ofInt 0) x

/-- `ColScl` of one channel (fast_output_file.py:441-446):
`single(65535/range)` with the range replaced by 1 when it is 0. -/
def colScl (S : FloatSys) (col : List S.F) : S.F :=
  let rng := S.single (S.sub (maxOf S col) (minOf S col))
  S.single (S.div (S.ofInt 65535) (if isZero S rng then S.ofInt 1 else rng))

/-- `ColOff` of one channel (fast_output_file.py:447):
`single(-32768 - single(min)*ColScl)` -/
def colOff (S : FloatSys) (col : List S.F) : S.F :=
  S.single (S.sub (S.ofInt (-32768)) (S.mul (S.single (minOf S col)) (colScl S col)))

/-- `np.clip(x, int16Min, int16Max)` (fast_output_file.py:482) -/
def clip (S : FloatSys) (x : S.F) : S.F :=
  if S.le x (S.ofInt (-32768)) then S.ofInt (-32768)
  else if S.le (S.ofInt 32767) x then S.ofInt 32767 else x

/-- two's complement wrap of an integer to `int16` -/
def wrap16 (z : Int) : Int := (z + 32768) % 65536 - 32768

/-- the packed integer of one value (fast_output_file.py:480-482): assignment of
a float to an `int16` array truncates. -/
def quantise (S : FloatSys) (scl off x : S.F) : Int :=
  wrap16 (S.trunc (clip S (S.add (S.mul scl x) off)))

/-- `ordchan = [ord..]+[32]*(10-len)`, `struct.pack('@10B', *ordchan)`
(fast_output_file.py:469-476) -/
def packName (s : Str) : Except Err Bytes :=
  match (s ++ List.replicate (10 - s.length) ' ').mapM packChar with
  | none => .error .structError
  | some bs => if bs.length = 10 then .ok bs else .error .structError

def packI (k : Nat) (x : Int) : Except Err Bytes :=
  match packInt k x with
  | none => .error .structError
  | some bs => .ok bs

/-- `struct.pack('@{}B'.format(len), *descStrASCII)` (fast_output_file.py:466) -/
def packStr (s : Str) : Except Err Bytes :=
  match s.mapM packChar with
  | none => .error .structError
  | some bs => .ok bs

/-- the packed table, row by row (fast_output_file.py:479-485) -/
def packData (S : FloatSys) (t : Table S.F) (scl off : List S.F) : List Int :=
  (t.rows.map (fun r => List.zipWith (fun (so : S.F × S.F) x => quantise S so.1 so.2 x)
    (scl.zip off) (r.drop 1))).flatten

/-- `struct.pack` of several signed integers -/
def packInts (k : Nat) (l : List Int) : Except Err Bytes :=
  match l.mapM (packInt k) with
  | none => .error .structError
  | some bs => .ok bs.flatten

/-- What is computed before the file is opened (fast_output_file.py:411-447):
units, first time, time step, scales and offsets. -/
structure Prepared (F : Type) where
  units : List Str
  t0 : F
  dt : F
  scl : List F
  off : List F

def prepare (S : FloatSys) (t : Table S.F) (names units : List Str) :
    Except Err (Prepared S.F) :=
  match fixUnits units with
  | .error e => .error e
  | .ok units =>
    if "Time".toList ∉ names then .error .noTime
    else if names.head? ≠ some "Time".toList then .error .timeNotFirst
    else if t.nCols = 0 then .error .indexError
    else match column S t 0 with
      | t0 :: t1 :: _ =>
        let cols := (List.range (t.nCols - 1)).map (fun j => column S t (j + 1))
        .ok { units := units, t0 := t0, dt := S.sub t1 t0,
              scl := cols.map (colScl S), off := cols.map (colOff S) }
      | _ => .error .indexError

/-- the successive `fid.write(struct.pack(...))` (fast_output_file.py:455-486) -/
def writeSteps (S : FloatSys) (t : Table S.F) (names : List Str) (descr : Str)
    (p : Prepared S.F) : List (Except Err Bytes) :=
  [packI 2 2, packI 4 ((t.nCols : Int) - 1), packI 4 t.rows.length, .ok (S.enc64 p.t0),
    .ok (S.enc64 p.dt), .ok (p.scl.flatMap S.enc32), .ok (p.off.flatMap S.enc32),
    packI 4 descr.length, packStr descr]
  ++ names.map packName ++ p.units.map packName
  ++ [packInts 2 (packData S t p.scl p.off)]

/-- run the writes on an opened (truncated) file until one raises -/
def runSteps : Bytes → List (Except Err Bytes) → Bytes × Except Err Unit
  | acc, [] => (acc, .ok ())
  | acc, .ok bs :: rest => runSteps (acc ++ bs) rest
  | acc, .error e :: _ => (acc, .error e)

/-- `writeBinary(fileName, channels, chanNames, chanUnits, fileID, descStr)`
(fast_output_file.py:394-487): content of the file afterwards (`none`: no such
file) and outcome.  For `fileID != 2` only a message is printed (:450-451). -/
def writeBinary (S : FloatSys) (old : Option Bytes) (t : Table S.F) (names units : List Str)
    (fileID : Int) (descr : Str) : Option Bytes × Except Err Unit :=
  match prepare S t names units with
  | .error e => (old, .error e)
  | .ok p =>
    if fileID ≠ 2 then (old, .ok ())
    else
      let r := runSteps [] (writeSteps S t names descr p)
      (some r.1, r.2)

/-! ## `writeDataFrame` (fast_output_file.py:361-391) -/

/-- `c.rfind(op)`: index of the last occurrence. -/
def rfind (op : Char) (s : Str) : Option Nat :=
  let r := s.reverse
  if op ∈ r then some (s.length - 1 - r.idxOf op) else none

/-- One turn of the loop (fast_output_file.py:366-385).  `unit` is the Python
local variable of that name: it keeps its value from turn to turn, and is
unbound (`none`) at the start.  (`units = ''` on line 369 sets another
variable.) -/
def columnTurn (unit : Option Str) (col : Str) : Except Err (Str × Option Str) :=
  let c := strip col
  match c.getLast? with
  | none => .error .indexError                                    -- c[-1] on ''
  | some last =>
    if last = ']' ∨ last = ')' then
      let op := if last = ']' then '[' else '('
      match rfind op c with
      | none => .ok (c, unit)
      | some iu =>
        if 1 < iu then
          let name := c.take iu
          let unit' := (c.drop (iu + 1)).filter (· ≠ last)
          let name := if name.getLast? = some '_' then name.dropLast else name
          .ok (name, some unit')
        else .ok (c, unit)
    else .ok (c, unit)

/-- the whole loop: names and units -/
def columnLoop (unit : Option Str) : List Str → Except Err (List (Str × Str))
  | [] => .ok []
  | c :: cs =>
    match columnTurn unit c with
    | .error e => .error e
    | .ok (name, unit') =>
      match unit' with
      | none => .error .unboundLocal                              -- :385
      | some u =>
        match columnLoop unit' cs with
        | .error e => .error e
        | .ok r => .ok ((name, u) :: r)

/-- `writeDataFrame(df, filename, binary)` (fast_output_file.py:361-391).  With
`binary=False` nothing happens: `NotImplementedError()` is built, not raised. -/
def writeDataFrame (S : FloatSys) (old : Option Bytes) (t : Table S.F) (columns : List Str)
    (binary : Bool) : Option Bytes × Except Err Unit :=
  match columnLoop none columns with
  | .error e => (old, .error e)
  | .ok nu =>
    if binary then writeBinary S old t (nu.map Prod.fst) (nu.map Prod.snd) 2 []
    else (old, .ok ())

end Verif.FastBin
