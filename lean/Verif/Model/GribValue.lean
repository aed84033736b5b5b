import Verif.Model.Grib
import Mathlib.Data.Rat.Floor
import Mathlib.Algebra.Order.Floor.Semiring
import Mathlib.Tactic.Linarith
import Mathlib.Tactic.Positivity
import Mathlib.Tactic.FieldSimp
import Mathlib.Tactic.NormNum

/-!
# GRIB-style grid packing: value level

Scaling and rounding of `pack_grib` (/repo/src/gempakio/encode/gempak.py:38-141), of `_unpack_grib`
(/repo/src/gempakio/decode/gempak.py:197-209) and the GRIB branch of `_unpack_grid`
(/repo/src/gempakio/decode/gempak.py:907-938), over exact rationals.  Simplification: NumPy's floating point rounding
and the storage of reference and scale as 32-bit floats are not modelled.
-/

namespace Gempak.Grib

/-- Python `round` / `np.round`: to nearest, ties to even. -/
def roundEven (q : ℚ) : ℤ :=
  let f := ⌊q⌋
  if q - f < 1 / 2 then f
  else if 1 / 2 < q - f then f + 1
  else if f % 2 = 0 then f else f + 1

/-- `while idat >= imax: nnnn -= 1; idat = qdiff * 2**nnnn` with `nnnn = -n` (encode/gempak.py:75-77). -/
def downLoop (q imax : ℚ) (hi : 0 < imax) (n : ℕ) : ℕ :=
  if h : imax ≤ q / 2 ^ n then downLoop q imax hi (n + 1) else n
termination_by ⌈q / imax⌉₊ - n
decreasing_by
  have h1 : imax * 2 ^ n ≤ q := by
    rwa [le_div_iff₀ (by positivity)] at h
  have h2 : (n : ℚ) < 2 ^ n := by exact_mod_cast Nat.lt_two_pow_self
  have h3 : (n : ℚ) < q / imax := by
    rw [lt_div_iff₀ hi]; nlinarith
  have h4 : n < ⌈q / imax⌉₊ := by
    have := lt_of_lt_of_le h3 (Nat.le_ceil (q / imax))
    exact_mod_cast this
  omega

theorem roundEven_le (q : ℚ) : (q : ℚ) - 1 / 2 ≤ roundEven q := by
  unfold roundEven
  have h1 := Int.floor_le q
  have h2 := Int.lt_floor_add_one q
  simp only
  split_ifs <;> push_cast <;> linarith

theorem roundEven_ge (q : ℚ) : (roundEven q : ℚ) ≤ q + 1 / 2 := by
  unfold roundEven
  have h1 := Int.floor_le q
  have h2 := Int.lt_floor_add_one q
  simp only
  split_ifs <;> push_cast <;> linarith

/-- `while round(qdiff * 2 ** (nnnn + 1)) < imax: nnnn += 1` (encode/gempak.py:79-80). -/
def upLoop (q : ℚ) (hq : 0 < q) (imax : ℕ) (n : ℕ) : ℕ :=
  if h : roundEven (q * 2 ^ (n + 1)) < imax then upLoop q hq imax (n + 1) else n
termination_by ⌈(imax + 1 : ℚ) / q⌉₊ - n
decreasing_by
  have h0 := roundEven_le (q * 2 ^ (n + 1))
  have h1 : (roundEven (q * 2 ^ (n + 1)) : ℚ) < imax := by exact_mod_cast h
  have h2 : (n : ℚ) < 2 ^ (n + 1) := by
    exact_mod_cast lt_trans (Nat.lt_two_pow_self) (Nat.pow_lt_pow_right (by decide) (Nat.lt_succ_self n))
  have h3 : (n : ℚ) < (imax + 1) / q := by
    rw [lt_div_iff₀ hq]; nlinarith
  have h4 : n < ⌈(imax + 1 : ℚ) / q⌉₊ := by
    have := lt_of_lt_of_le h3 (Nat.le_ceil ((imax + 1 : ℚ) / q))
    exact_mod_cast this
  omega

/-- `imax = 2**nbits - 1` (encode/gempak.py:71). -/
def imaxOf (nbits : ℕ) : ℕ := 2 ^ nbits - 1

/-- The exponent `nnnn` (encode/gempak.py:71-80); `qdiff` is non-negative here. -/
def scaleExp (nbits : ℕ) (q : ℚ) : ℤ :=
  if h : (imaxOf nbits : ℚ) / 2 ^ 126 < q then
    if hi : 0 < imaxOf nbits ∧ (imaxOf nbits : ℤ) ≤ roundEven q then
      -((downLoop q (imaxOf nbits) (by exact_mod_cast hi.1) 1 : ℕ) : ℤ)
    else (upLoop q (lt_of_le_of_lt (by positivity) h) (imaxOf nbits) 0 : ℕ)
  else 0

/-- `grid.min()` of a non-empty list. -/
def qMin : ℚ → List ℚ → ℚ := fun a l => l.foldl min a
/-- `grid.max()` of a non-empty list. -/
def qMax : ℚ → List ℚ → ℚ := fun a l => l.foldl max a

/-- One entry of `rgrid_round` (encode/gempak.py:84-89).  `astype('int32')` is exact: the value never exceeds `imax`
(theorem `quantOne_le`). -/
def quantOne (nbits : ℕ) (missing qmin : ℚ) (e : ℤ) (x : ℚ) : ℕ :=
  if x ≠ missing then (roundEven (max (x - qmin) 0 * 2 ^ e)).toNat else imaxOf nbits

/-- `qmin`, `qmax` (encode/gempak.py:51-60); `all()` of an empty grid is true. -/
def qRange (grid : List ℚ) (missing : ℚ) : ℚ × ℚ :=
  match grid with
  | [] => (missing, missing)
  | a :: l => if (a :: l).all (· = missing) then (missing, missing) else (qMin a l, qMax a l)

/-- `pack_grib` (encode/gempak.py:38-141): reference, scale and words. -/
def packGrib (grid : List ℚ) (missing : ℚ) (nbits : ℤ) : Except PyErr (ℚ × ℚ × List Int) :=
  if nbits < 1 ∨ nbits > 31 then .error .valueError
  else
    let n := nbits.toNat
    let hasMissing := grid.any (· = missing)
    let qmin := (qRange grid missing).1
    let qmax := (qRange grid missing).2
    let qdiff := qmax - qmin
    if qdiff < 0 ∨ roundEven qdiff > 2147483647 then .error .valueError
    else if qdiff = 0 ∧ hasMissing = false then
      .ok (qmin, 1, List.replicate (lendat n grid.length) 0)
    else
      let e := scaleExp n qdiff
      match packWords n (grid.map (quantOne n missing qmin e)) with
      | .error err => .error err
      | .ok out => .ok (qmin, (2 : ℚ) ^ (-e), out)

/-- Reconstruction of one value (decode/gempak.py:197-207). -/
def dequantOne (nbits : ℕ) (reference scale : ℚ) (missing : Option ℚ) (v : ℕ) : ℚ :=
  if v = imaxOf nbits ∧ missing.isSome then missing.getD 0 else reference + v * scale

/-- `_unpack_grib` (decode/gempak.py:149-209). -/
def unpackGrib (words : List Int) (nbits kxky : ℕ) (reference scale : ℚ) (missing : Option ℚ) :
    Except PyErr (List ℚ) :=
  match unpackWords nbits words kxky with
  | .error e => .error e
  | .ok r => .ok (r.map (dequantOne nbits reference scale missing))

/-- GRIB branch of `_unpack_grid` (decode/gempak.py:907-938): one word or fewer gives `None`. -/
def readGrib (words : List Int) (nbits kxky : ℕ) (reference scale : ℚ) (missing : Option ℚ) :
    Except PyErr (Option (List ℚ)) :=
  if words.length > 1 then (unpackGrib words nbits kxky reference scale missing).map some else .ok none

end Gempak.Grib
