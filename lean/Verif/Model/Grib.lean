import Verif.Model.Base

/-!
# GRIB-style grid packing: integer level

`packWords` renders the word assembly of `pack_grib`
(/repo/src/gempakio/encode/gempak.py:91-137) and `unpackWords` the index and shift arithmetic of `_unpack_grib`
(/repo/src/gempakio/decode/gempak.py:149-196).  NumPy arrays become lists; int32 wrap-around of `<<` is kept explicit.
-/

namespace Gempak.Grib

/-- `((33 - ((np.arange(kxky) + 1) * nbits)) % 32 - 1) % 32`
(encode/gempak.py:93, decode/gempak.py:153 up to sign). -/
def wordShift (nbits k : Nat) : Int := ((33 - ((k : Int) + 1) * nbits) % 32 - 1) % 32

/-- Number of 32-bit words for `kxky` fields (encode/gempak.py:45-47). -/
def lendat (nbits kxky : Nat) : Nat :=
  let l := (nbits * kxky) / 32
  if l * 32 ≠ nbits * kxky then l + 1 else l

/-- `np.where(word_shifts >= (32 - nbits))[0]` (encode/gempak.py:94-95). -/
def wordStarts (nbits kxky : Nat) : List Nat :=
  (List.range kxky).filter (fun k => decide (wordShift nbits k ≥ 32 - (nbits : Int)))

/-- `np.diff` of a list of indices. -/
def diffs : List Nat → List Int
  | a :: b :: l => ((b : Int) - a) :: diffs (b :: l)
  | _ => []

/-- `a.max()` of an integer array: `ValueError` when empty. -/
def maxOf : List Int → Except PyErr Int
  | [] => .error .valueError
  | a :: l => .ok (l.foldl max a)

/-- `n_input_words` (encode/gempak.py:99-100); `(32 / nbits) != (32 // nbits)` is "nbits does not divide 32". -/
def nInputWords (nbits : Nat) (starts : List Nat) : Except PyErr Int := do
  let m ← maxOf (diffs starts)
  .ok (m + if 32 % nbits ≠ 0 then 1 else 0)

/-- One row of `(iis, jshfts)` (encode/gempak.py:107-126): `steps` further columns after the current
index `ii` and shift `j`; `mx` is the row's entry of `iis_2d_max`. -/
def rowFrom (nbits : Nat) (mx : Int) : Nat → Int → Int → List (Int × Int)
  | 0, ii, j => [(ii, j)]
  | steps + 1, ii, j =>
    (ii, j) ::
      (if ii + 1 > mx ∨ ii = -1 then rowFrom nbits mx steps (-1) 0
       else rowFrom nbits mx steps (ii + 1) (j - nbits))

/-- int32 wrap-around. -/
def wrapI32 (i : Int) : Int := toI32 (toU32 i)

/-- One entry of `rgrid_shifted` (encode/gempak.py:129-135).  `r` are the non-negative values `rgrid_round`. -/
def piece (r : List Nat) (ij : Int × Int) : Int :=
  if ij.1 ≥ 0 then
    let v := r.getD ij.1.toNat 0
    if ij.2 > 0 then wrapI32 ((v * 2 ^ ij.2.toNat : Nat) : Int)
    else ((v / 2 ^ (-ij.2).toNat : Nat) : Int)
  else 0

/-- Rows of the packing table: start index paired with its maximum index
(encode/gempak.py:113-114: `np.roll(word_start_idxs, -1)` with the last entry replaced by `kxky - 1`). -/
def rowBounds (kxky : Nat) : List Nat → List (Nat × Int)
  | [] => []
  | [a] => [(a, (kxky : Int) - 1)]
  | a :: b :: l => (a, (b : Int)) :: rowBounds kxky (b :: l)

/-- The packed words `out` (encode/gempak.py:91-137) for already scaled and rounded values `r`.
A shape mismatch in line 108-109 would raise `ValueError`; so does an empty `np.diff`. -/
def packWords (nbits : Nat) (r : List Nat) : Except PyErr (List Int) := do
  let kxky := r.length
  let starts := wordStarts nbits kxky
  let n ← nInputWords nbits starts
  if starts.length ≠ lendat nbits kxky then .error .valueError
  .ok ((rowBounds kxky starts).map fun (st, mx) =>
    ((rowFrom nbits mx (n.toNat - 1) st (wordShift nbits st)).map (piece r)).sum)

/-! ## Unpacking -/

/-- `split_words` (decode/gempak.py:156). -/
def splitWord (nbits k : Nat) : Bool := decide (-(wordShift nbits k) < (nbits : Int) - 32)

/-- `even_words` (decode/gempak.py:160-161). -/
def evenWord (nbits k : Nat) : Bool := decide (k ≠ 0 ∧ -(wordShift nbits (k - 1)) = 0)

/-- `np.cumsum(split_words | even_words)[k]` (decode/gempak.py:172). -/
def wordIdx (nbits : Nat) : Nat → Nat
  | 0 => if splitWord nbits 0 || evenWord nbits 0 then 1 else 0
  | k + 1 => wordIdx nbits k + if splitWord nbits (k + 1) || evenWord nbits (k + 1) then 1 else 0

/-- Bit-wise and with `imax = 2**nbits - 1` on int64 (decode/gempak.py:195). -/
def maskBits (nbits : Nat) (i : Int) : Nat := (i % (2 ^ nbits : Nat)).toNat

/-- One output value (decode/gempak.py:186-196).  Indexing past the end of the buffer is `IndexError`.
First column: `iis[k,0]` with a right shift of the unsigned word; second column, only for split words:
the previous word shifted left in int32. -/
def unpackOne (nbits : Nat) (w : List Int) (k : Nat) : Except PyErr Nat :=
  let i0 := wordIdx nbits k
  match w[i0]? with
  | none => .error .indexError
  | some w0 =>
    let low := maskBits nbits ((toU32 w0 / 2 ^ (wordShift nbits k).toNat : Nat) : Int)
    if splitWord nbits k then
      match w[i0 - 1]? with
      | none => .error .indexError
      | some w1 => .ok (low + maskBits nbits (wrapI32 (w1 * (2 ^ (32 - wordShift nbits k).toNat : Nat))))
    else .ok low

/-- The integers `unpacked_buffer` (decode/gempak.py:149-196).  `even_words[0] = False` fails for an empty grid. -/
def unpackWords (nbits : Nat) (w : List Int) (kxky : Nat) : Except PyErr (List Nat) :=
  if kxky = 0 then .error .indexError
  else (List.range kxky).mapM (unpackOne nbits w)

end Gempak.Grib
