import Verif.Model.Base

/-!
# Packed reals and word shifts

`_fortran_ishift` and `_unpack_real` of /repo/src/gempakio/decode/gempak.py:528-610.
-/

namespace Gempak

/-- `_fortran_ishift` (decode/gempak.py:528-539); `ctypes.c_int32` reduces to 32 bits, signed. -/
def ishift (i shift : Int) : Int :=
  if 0 < shift then toI32 (toU32 (i * 2 ^ shift.toNat))
  else if shift < 0 then
    if i < 0 then ((toU32 i / 2 ^ (-shift).toNat : Nat) : Int) else i / 2 ^ (-shift).toNat
  else i

/-- Python `a & m` where `0 ≤ m < 2 ** 32` (widths of at most 32 bits). -/
def and32 (a m : Int) : Int := ((toU32 a &&& toU32 m : Nat) : Int)

/-- Python `a | b` for `0 ≤ a, b < 2 ** 32`. -/
def or32 (a b : Int) : Int := ((a.toNat ||| b.toNat : Nat) : Int)

/-- `mskpat` (decode/gempak.py:563). -/
def mskpat : Int := 0xFFFFFFFF

/-- The field starting at bit `itotal` of a record (decode/gempak.py:581-599); `IndexError` past the record. -/
def realField (pdat : List Int) (itotal bits : Nat) : Except PyErr Int :=
  let isbitc : Int := ((itotal % 32 : Nat) : Int) + 1
  let jshift : Int := 1 - isbitc
  let mask := ishift mskpat ((bits : Int) - 32)
  match pdat[itotal / 32]? with
  | none => .error .indexError
  | some jword =>
    let ifield := and32 (ishift jword jshift) mask
    if isbitc + bits - 1 > 32 then
      match pdat[itotal / 32 + 1]? with
      | none => .error .indexError
      | some jword2 => .ok (or32 ifield (and32 (ishift jword2 (jshift + 32)) mask))
    else .ok ifield

/-- A decoded value: `none` is the missing value, `some (n, s)` stands for `n * 10 ** s` in single precision
(decode/gempak.py:601-604). -/
abbrev RealVal := Option (Int × Int)

/-- Attributes of a parameter: bits, scale, offset. -/
structure RealAttr where
  bits : Nat
  scale : Int
  offset : Int
  deriving DecidableEq, Repr

/-- One value (decode/gempak.py:578-605). -/
def realValue (pdat : List Int) (itotal : Nat) (a : RealAttr) : Except PyErr RealVal := do
  let f ← realField pdat itotal a.bits
  if f = ishift mskpat ((a.bits : Int) - 32) then .ok none else .ok (some (f + a.offset, a.scale))

/-- The loop over parameters of one record (decode/gempak.py:574-606). -/
def realRecord (pdat : List Int) : Nat → List RealAttr → Except PyErr (List RealVal)
  | _, [] => .ok []
  | itotal, a :: as => do
    let v ← realValue pdat itotal a
    .ok (v :: (← realRecord pdat (itotal + a.bits) as))

/-- The loop over records (decode/gempak.py:571-608). -/
def realLoop (buffer : List Int) (attrs : List RealAttr) (pwords : Nat) : Nat → Nat → Except PyErr (List RealVal)
  | 0, _ => .ok []
  | n + 1, ii => do
    let r ← realRecord ((buffer.drop ii).take pwords) 0 attrs
    .ok (r ++ (← realLoop buffer attrs pwords n (ii + pwords)))

/-- `_unpack_real` (decode/gempak.py:557-610).  Widths are natural numbers of at most 32 bits (negative or wider ones do
not occur in files). -/
def unpackReal (buffer : List Int) (attrs : List RealAttr) (length : Nat) : Except PyErr (List RealVal) :=
  let pwords : Int := (((attrs.map RealAttr.bits).sum : Nat) - 1 : Int) / 32 + 1
  if pwords = 0 then .error .zeroDivision
  else
    let npack : Int := ((length : Int) - 1) / pwords + 1
    if npack * pwords ≠ length then .error .valueError
    else realLoop buffer attrs pwords.toNat npack.toNat 0

end Gempak
