/-!
# Basic vocabulary shared by all models

Exceptions, byte order, 32-bit words.  Python's `struct` module is part of the trusted base (see DESIGN.md); the
definitions below render the formats `i`, `f`, `4s` for the two byte orders used in /repo.
-/

namespace Gempak

/-- Python exceptions that the modelled code can raise (as values). -/
inductive PyErr where
  | typeError | valueError | keyError | indexError | structError | notImplemented
  | overflowError | attributeError | unicodeError | stopIteration | zeroDivision | unboundLocal
  deriving DecidableEq, Repr

abbrev Bytes := List UInt8

/-- Byte order prefix of a `struct` format: `'<'` or `'>'`. -/
inductive Endian where
  | little | big
  deriving DecidableEq, Repr

/-- A single-precision float, kept as its 32-bit pattern (`struct` format `f`). -/
abbrev F32 := BitVec 32

/-- The pattern of `-9999.0` in single precision (/repo/src/gempakio/common.py:46, `MISSING_FLOAT`). -/
def missingF32 : F32 := 0xC61C3C00#32

/-- `k` little-endian bytes of a natural number (low byte first, higher parts dropped). -/
def natToLE (n : Nat) : Nat → Bytes
  | 0 => []
  | k + 1 => UInt8.ofNat n :: natToLE (n / 256) k

/-- Value of little-endian bytes. -/
def leToNat : Bytes → Nat
  | [] => 0
  | b :: bs => b.toNat + 256 * leToNat bs

/-- `k`-byte unsigned integer in the given byte order. -/
def encNat (e : Endian) (k n : Nat) : Bytes :=
  match e with
  | .little => natToLE n k
  | .big => (natToLE n k).reverse

/-- Unsigned integer from bytes in the given byte order (`int.from_bytes(.., signed=False)`). -/
def decNat (e : Endian) (bs : Bytes) : Nat :=
  match e with
  | .little => leToNat bs
  | .big => leToNat bs.reverse

/-- Two's complement: unsigned 32-bit pattern of an integer. -/
def toU32 (i : Int) : Nat := (i % 4294967296).toNat

/-- Two's complement: signed value of a 32-bit pattern. -/
def toI32 (n : Nat) : Int := if n < 2147483648 then (n : Int) else (n : Int) - 4294967296

/-- Values accepted by `struct` format `i`. -/
def inI32 (i : Int) : Prop := -2147483648 ≤ i ∧ i < 2147483648

instance (i : Int) : Decidable (inI32 i) := by unfold inI32; infer_instance

/-- `struct.pack(e + 'i', i)`: `struct.error` outside the 32-bit range. -/
def packI32 (e : Endian) (i : Int) : Except PyErr Bytes :=
  if inI32 i then .ok (encNat e 4 (toU32 i)) else .error .structError

/-- `struct.unpack(e + 'i', bs)`: exactly four bytes are needed. -/
def unpackI32 (e : Endian) (bs : Bytes) : Except PyErr Int :=
  if bs.length = 4 then .ok (toI32 (decNat e bs)) else .error .structError

/-- `struct.pack(e + 'f', f)` on a value already in single precision. -/
def packF32 (e : Endian) (f : F32) : Bytes := encNat e 4 f.toNat

/-- `struct.unpack(e + 'f', bs)`. -/
def unpackF32 (e : Endian) (bs : Bytes) : Except PyErr F32 :=
  if bs.length = 4 then .ok (BitVec.ofNat 32 (decNat e bs)) else .error .structError

end Gempak
