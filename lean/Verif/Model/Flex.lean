import Verif.Py.Bytes
/-!
# Flex5 result files

`/repo/weio/flex_out_file.py`, `read_flex_res` (74-128), on the bytes of the file.
Single precision arithmetic is a parameter.
-/
namespace Verif.Flex
open Verif.Py

/-- exceptions -/
inductive Err where
  | index            -- IndexError: `np.fromfile(...)[0]` at the end of the file
  | notImplemented   -- NotImplementedError (98)
  | zero             -- OverflowError/ValueError of `int(len(data)/0)` (117)
  | wrongFormat      -- WrongFormatError (124)
  | unbound          -- UnboundLocalError: `scale_factors` of an unknown version (126)
deriving DecidableEq, Repr

/-- single precision numbers: decoding of 4 bytes, conversion of `int16` (`astype`, 116) and
product (126) -/
structure Flt where
  F : Type
  dec : Bytes → F
  ofInt : Int → F
  mul : F → F → F

/-- `np.fromfile(fid, 'int32', 1)[0]` at a position -/
def intAt (bs : Bytes) (pos : Nat) : Except Err Int :=
  if pos + 4 ≤ bs.length then .ok (unpackInt 4 ((bs.drop pos).take 4)) else .error .index

/-- whole items of `w` bytes (`np.fromfile` without count leaves an incomplete item) -/
def items (w : Nat) (dec : Bytes → α) (bs : Bytes) : List α :=
  (List.range (bs.length / w)).map fun k => dec ((bs.drop (w * k)).take w)

/-- at most `n` items of 4 bytes -/
def items4 (dec : Bytes → α) (n : Nat) (bs : Bytes) : List α := (items 4 dec bs).take n

/-- what is read -/
structure Res (F : Type) where
  tmin : F
  dt : F
  version : Int
  rows : List (List F)

/-- the samples as rows, one row per step (117-124): `reshape(nSensors, nt).transpose()` for
version 3, `reshape(nt, nSensors)` otherwise; ValueError of `reshape` when the size does
not fit -/
def toRows (version : Int) (n : Nat) (data : List α) : Except Err (List (List α)) :=
  let nt := data.length / n
  if data.length = nt * n then
    if version = 3 then .ok ((List.range nt).map fun t => (List.range n).filterMap fun c => data[c * nt + t]?)
    else .ok ((List.range nt).map fun t => (List.range n).filterMap fun c => data[t * n + c]?)
  else .error .wrongFormat

/-- the scaling loop (125-126): column `i` times `scale_factors[i]` -/
def scaleRows (S : Flt) (scale : List S.F) (n : Nat) (rows : List (List S.F)) : Except Err (List (List S.F)) :=
  if scale.length < n then .error .index
  else .ok (rows.map fun r => List.zipWith S.mul r scale)

/-- the data block (115-126) -/
def readData (S : Flt) (version : Int) (n : Nat) (scale : List S.F) (block : Bytes) : Except Err (List (List S.F)) :=
  if n = 0 then .error .zero
  else match toRows version n ((items 2 (unpackInt 2) block).map S.ofInt) with
    | .error e => .error e
    | .ok rows => scaleRows S scale n rows

/-- `read_flex_res` (74-128).  Both ways of reading date and title (80-88) end at byte 68;
the number of sensors is at byte 76 after two more integers (89-91).  A file too short for
the head gives an IndexError at one of the `[0]`.  A negative number of sensors reads all the
rest of the file as IDs and fails at the version. -/
def readRes (S : Flt) (bs : Bytes) : Except Err (Res S.F) :=
  match intAt bs 76 with
  | .error e => .error e
  | .ok nz =>
    if nz < 0 then .error .index
    else
      let n := nz.toNat
      let pv := 84 + 4 * n
      match intAt bs pv with
      | .error e => .error e
      | .ok v =>
        if v = 12 then .error .notImplemented
        else if v = 0 ∨ v = 2 ∨ v = 3 then
          if bs.length < pv + 12 then .error .index
          else
            let rest := bs.drop (pv + 12)
            match readData S v n (items4 S.dec n rest) (rest.drop (4 * n)) with
            | .error e => .error e
            | .ok rows => .ok ⟨S.dec ((bs.drop (pv + 4)).take 4), S.dec ((bs.drop (pv + 8)).take 4), v, rows⟩
        else if n = 0 then .error .zero
        else match toRows v n (items 2 (unpackInt 2) (bs.drop (pv + 4))) with
          | .error e => .error e
          | .ok _ => .error .unbound

end Verif.Flex
