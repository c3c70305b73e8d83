import Verif.Py.Str
/-!
# Bytes and `struct`

Semantics assumed for Python's `struct` module on a little-endian machine
(`'@h'`, `'@i'`, `'B'`) and for `file.read(n)`; part of the trusted base.
-/
namespace Verif.Py

abbrev Bytes := List UInt8

/-- the `k` little-endian bytes of `n` (modulo `256^k`). -/
def leBytes : Nat → Nat → Bytes
  | 0, _ => []
  | k + 1, n => UInt8.ofNat (n % 256) :: leBytes k (n / 256)

/-- value of a little-endian byte string. -/
def leNat : Bytes → Nat
  | [] => 0
  | b :: bs => b.toNat + 256 * leNat bs

/-- `struct.pack` of a signed integer of `k` bytes; `none` is `struct.error`
(value out of range). -/
def packInt (k : Nat) (x : Int) : Option Bytes :=
  if -(2 ^ (8 * k - 1) : Int) ≤ x ∧ x < 2 ^ (8 * k - 1) then
    some (leBytes k (x % 2 ^ (8 * k)).toNat)
  else none

/-- `struct.unpack` of a signed integer of `k` bytes. -/
def unpackInt (k : Nat) (bs : Bytes) : Int :=
  if leNat bs < 2 ^ (8 * k - 1) then leNat bs else (leNat bs : Int) - 2 ^ (8 * k)

/-- `struct.pack('B')` of `ord(c)`: `none` is `struct.error` for code points
above 255. -/
def packChar (c : Char) : Option UInt8 :=
  if c.toNat < 256 then some (UInt8.ofNat c.toNat) else none

/-- `chr(b)`. -/
def unpackChar (b : UInt8) : Char := Char.ofNat b.toNat

/-- `m` consecutive pieces of `k` elements (numpy row-major reshape, or the
items of a `struct.unpack`). -/
def rowsOf (k : Nat) : Nat → List α → List (List α)
  | 0, _ => []
  | m + 1, l => l.take k :: rowsOf k m (l.drop k)

end Verif.Py
