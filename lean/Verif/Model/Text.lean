import Verif.Model.Struct

/-!
# Text

Python `str` is a list of characters (lone surrogates, which cannot be encoded, are outside the model).  UTF-8 as in
`bytes(.., 'utf-8')` / `bytes.decode()`, `str.strip`, `f'{s:<4s}'`.
-/

namespace Gempak

abbrev Text := List Char

/-- A string literal as text. -/
def txt (s : String) : Text := s.toList

/-- UTF-8 encoding of one character. -/
def utf8Enc (c : Char) : Bytes :=
  let n := c.toNat
  if n < 0x80 then [UInt8.ofNat n]
  else if n < 0x800 then [UInt8.ofNat (0xC0 + n / 64), UInt8.ofNat (0x80 + n % 64)]
  else if n < 0x10000 then
    [UInt8.ofNat (0xE0 + n / 4096), UInt8.ofNat (0x80 + n / 64 % 64), UInt8.ofNat (0x80 + n % 64)]
  else
    [UInt8.ofNat (0xF0 + n / 262144), UInt8.ofNat (0x80 + n / 4096 % 64), UInt8.ofNat (0x80 + n / 64 % 64),
      UInt8.ofNat (0x80 + n % 64)]

/-- `bytes(s, 'utf-8')`. -/
def utf8 (s : Text) : Bytes := s.flatMap utf8Enc

/-- A continuation byte and its six bits. -/
def contBits (b : UInt8) : Option Nat := if 0x80 ≤ b.toNat ∧ b.toNat < 0xC0 then some (b.toNat - 0x80) else none

/-- The character with a code, if the code is a scalar value of at least `lo`. -/
def scalar (lo n : Nat) : Option Char := if lo ≤ n ∧ n.isValidChar then some (Char.ofNat n) else none

/-- `b.decode()`: strict UTF-8 (`none` = `UnicodeDecodeError`). -/
def utf8Dec : Bytes → Option Text
  | [] => some []
  | b0 :: rest =>
    if b0.toNat < 0x80 then do some (Char.ofNat b0.toNat :: (← utf8Dec rest))
    else if b0.toNat < 0xC0 then none
    else if b0.toNat < 0xE0 then
      match rest with
      | b1 :: r => do
        let c ← scalar 0x80 ((b0.toNat - 0xC0) * 64 + (← contBits b1))
        some (c :: (← utf8Dec r))
      | [] => none
    else if b0.toNat < 0xF0 then
      match rest with
      | b1 :: b2 :: r => do
        let c ← scalar 0x800 ((b0.toNat - 0xE0) * 4096 + (← contBits b1) * 64 + (← contBits b2))
        some (c :: (← utf8Dec r))
      | _ => none
    else
      match rest with
      | b1 :: b2 :: b3 :: r => do
        let c ← scalar 0x10000
          ((b0.toNat - 0xF0) * 262144 + (← contBits b1) * 4096 + (← contBits b2) * 64 + (← contBits b3))
        some (c :: (← utf8Dec r))
      | _ => none

/-- White space stripped by `str.strip()`. -/
def isSpace (c : Char) : Bool :=
  let n := c.toNat
  (9 ≤ n && n ≤ 13) || (28 ≤ n && n ≤ 32) || n == 0x85 || n == 0xA0 || n == 0x1680 || (0x2000 ≤ n && n ≤ 0x200A) ||
    n == 0x2028 || n == 0x2029 || n == 0x202F || n == 0x205F || n == 0x3000

/-- `s.strip()`. -/
def strip (s : Text) : Text := ((s.dropWhile isSpace).reverse.dropWhile isSpace).reverse

/-- `f'{s:<4s}'`: pad on the right with blanks to at least `n` characters. -/
def ljust (n : Nat) (s : Text) : Text := s ++ List.replicate (n - s.length) ' '

/-- The four bytes written by `GempakStream.write_string` (/repo/src/gempakio/encode/gempak.py:158-160). -/
def str4 (s : Text) : Bytes :=
  (utf8 (ljust 4 s)).take 4 ++ List.replicate (4 - (utf8 (ljust 4 s)).length) 0

/-- `GempakFile._decode_strip` (/repo/src/gempakio/decode/gempak.py:542-545). -/
def decodeStrip (b : Bytes) : Except PyErr Text :=
  match utf8Dec b with
  | some s => .ok (strip s)
  | none => .error .unicodeError

/-- ASCII part of `str.upper`. -/
def asciiUpper (s : Text) : Text := s.map fun c => if 'a' ≤ c ∧ c ≤ 'z' then Char.ofNat (c.toNat - 32) else c

end Gempak
