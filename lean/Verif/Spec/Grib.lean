import Verif.Model.Base

/-!
# Specification of the packed bit string

Independent of the index and shift tables of the code: fields are written most significant bit first, one after the
other, and the resulting bit string is cut into 32-bit words, zero filled at the end.
-/

namespace Gempak.Grib.Spec

/-- Bits of `v`, most significant of the `n` bits first. -/
def bitsMSB (n v : Nat) : List Bool := (List.range n).map fun i => v.testBit (n - 1 - i)

/-- The bit string of a list of `n`-bit fields. -/
def bitString (n : Nat) (r : List Nat) : List Bool := r.flatMap (bitsMSB n)

/-- Number read from a bit string, most significant bit first. -/
def ofBits (bs : List Bool) : Nat := bs.foldl (fun a b => 2 * a + b.toNat) 0

/-- The first `n` bits from position `p`, with zeros after the end. -/
def take0 (n p : Nat) (bs : List Bool) : List Bool := (List.range n).map fun i => bs.getD (p + i) false

/-- Word `w` of the zero-filled bit string. -/
def wordAt (bs : List Bool) (w : Nat) : Nat := ofBits (take0 32 (32 * w) bs)

/-- Number of words: `ceil (n * count / 32)`. -/
def wordCount (n count : Nat) : Nat := (n * count + 31) / 32

/-- Packed words as signed 32-bit integers. -/
def packed (n : Nat) (r : List Nat) : List Int :=
  (List.range (wordCount n r.length)).map fun w => toI32 (wordAt (bitString n r) w)

/-- Field `k` of width `n` of arbitrary words. -/
def field (n : Nat) (w : List Int) (k : Nat) : Nat :=
  ofBits (take0 n (n * k) (bitString 32 (w.map toU32)))

end Gempak.Grib.Spec
