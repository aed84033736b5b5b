import Mathlib.Data.Rat.Floor
import Mathlib.Algebra.Order.Field.Rat
import Mathlib.Algebra.Order.Field.Power
import Verif.Model.Base

/-!
# Single precision numbers

Value of a 32-bit pattern (IEEE 754 binary32), the meaning of the `struct` format `f`.
-/

namespace Gempak

/-- Value of a pattern; `none` for infinities and not-a-number. -/
def f32Value (p : F32) : Option ℚ :=
  let n := p.toNat
  let s : ℚ := if n / 2 ^ 31 = 0 then 1 else -1
  let e : ℕ := n / 2 ^ 23 % 256
  let f : ℕ := n % 2 ^ 23
  if e = 255 then none
  else if e = 0 then some (s * (f : ℚ) / 2 ^ 149)
  else some (s * ((2 ^ 23 + f : ℕ) : ℚ) * 2 ^ ((e : ℤ) - 150))

/-- `int(x)` of a float: towards zero; infinities and not-a-number raise. -/
def f32Int (p : F32) : Except PyErr Int :=
  match f32Value p with
  | some q => .ok (if 0 ≤ q then ⌊q⌋ else ⌈q⌉)
  | none => if p.toNat % 2 ^ 23 = 0 then .error .overflowError else .error .valueError

end Gempak
