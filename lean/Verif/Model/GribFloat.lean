import Verif.Model.GribValue
import Mathlib.Data.Int.Log

/-!
# GRIB-style grid packing in floating point

`pack_grib` (/repo/src/gempakio/encode/gempak.py:38-141), the storage of reference and scale
(/repo/src/gempakio/encode/gempak.py:1058-1073) and `_unpack_grib` (/repo/src/gempakio/decode/gempak.py:149-209) with every
subtraction, product and sum rounded to binary floating point: `p` bits for the grid (24 or 53), 24 for what is stored, 53 for
what is read.  Simplification: exponents are unbounded, so neither overflow nor subnormal numbers occur.
-/

namespace Gempak.Grib

/-- Rounding to `p` significant bits, to nearest, ties to even. -/
def rnd (p : ℕ) (x : ℚ) : ℚ :=
  roundEven (x / 2 ^ (Int.log 2 |x| - p + 1)) * 2 ^ (Int.log 2 |x| - p + 1)

/-- One entry of `rgrid_round` (encode/gempak.py:84-89). -/
def quantF (p nbits : ℕ) (missing qmin : ℚ) (e : ℤ) (x : ℚ) : ℕ :=
  if x ≠ missing then (roundEven (rnd p (max (rnd p (x - qmin)) 0 * 2 ^ e))).toNat else imaxOf nbits

/-- `pack_grib` (encode/gempak.py:38-141).  The products `qdiff * 2**nnnn` of the search for the exponent are exact
(`rnd_scaled`) and not rounded here. -/
def packGribF (p : ℕ) (grid : List ℚ) (missing : ℚ) (nbits : ℤ) : Except PyErr (ℚ × ℚ × List Int) :=
  if nbits < 1 ∨ nbits > 31 then .error .valueError
  else
    let n := nbits.toNat
    let hasMissing := grid.any (· = missing)
    let qmin := (qRange grid missing).1
    let qmax := (qRange grid missing).2
    let qdiff := rnd p (qmax - qmin)
    if qdiff < 0 ∨ roundEven qdiff > 2147483647 then .error .valueError
    else if qdiff = 0 ∧ hasMissing = false then
      .ok (qmin, 1, List.replicate (lendat n grid.length) 0)
    else
      let e := scaleExp n qdiff
      match packWords n (grid.map (quantF p n missing qmin e)) with
      | .error err => .error err
      | .ok out => .ok (qmin, (2 : ℚ) ^ (-e), out)

/-- Reference and scale as the file holds them: `struct` format `f` (encode/gempak.py:1058-1073). -/
def storedF (x : ℚ) : ℚ := rnd 24 x

/-- Reconstruction of one value (decode/gempak.py:197-207): reference and scale are Python floats. -/
def dequantF (nbits : ℕ) (reference scale : ℚ) (missing : Option ℚ) (v : ℕ) : ℚ :=
  if v = imaxOf nbits ∧ missing.isSome then missing.getD 0 else rnd 53 (reference + rnd 53 (v * scale))

/-- GRIB branch of `_unpack_grid` with `_unpack_grib` (decode/gempak.py:149-209,907-938). -/
def readGribF (words : List Int) (nbits kxky : ℕ) (reference scale : ℚ) (missing : Option ℚ) : Except PyErr (Option (List ℚ)) :=
  if words.length > 1 then
    match unpackWords nbits words kxky with
    | .error e => .error e
    | .ok r => .ok (some (r.map (dequantF nbits reference scale missing)))
  else .ok none

end Gempak.Grib
