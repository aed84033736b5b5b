import Mathlib.Tactic.Ring
import Mathlib.Tactic.Linarith
import Verif.Model.GridRead
import Verif.Props.RealPack
import Verif.Proof.DMRead

/-!
# Fields and running sums of DIFF grids
-/

namespace Gempak

/-! ## The bit string -/

/-- Words as one number, the first word being the most significant. -/
def Spec.msbNumber (ws : List Int) : Nat := ws.foldl (fun acc w => acc * 4294967296 + toU32 w) 0

/-- The field of `bits` bits that follows the first `pos` bits. -/
def Spec.msbField (ws : List Int) (pos bits : Nat) : Nat :=
  msbNumber ws / 2 ^ (32 * ws.length - pos - bits) % 2 ^ bits

theorem msb_foldl (ws : List Int) (a : Nat) :
    ws.foldl (fun acc w => acc * 4294967296 + toU32 w) a = a * 2 ^ (32 * ws.length) + Spec.msbNumber ws := by
  induction ws generalizing a with
  | nil => simp [Spec.msbNumber]
  | cons w ws ih =>
    unfold Spec.msbNumber
    rw [List.foldl_cons, List.foldl_cons, ih, ih (0 * 4294967296 + toU32 w), List.length_cons,
      show 32 * (ws.length + 1) = 32 * ws.length + 32 by omega, Nat.pow_add, show (2 : Nat) ^ 32 = 4294967296 by norm_num]
    ring

theorem msb_lt (ws : List Int) : Spec.msbNumber ws < 2 ^ (32 * ws.length) := by
  induction ws using List.reverseRecOn with
  | nil => decide
  | append_singleton ws w ih =>
    unfold Spec.msbNumber at ih ⊢
    rw [List.foldl_append, List.length_append, List.length_singleton, List.foldl_cons, List.foldl_nil,
      show 32 * (ws.length + 1) = 32 * ws.length + 32 by omega, Nat.pow_add, show (2 : Nat) ^ 32 = 4294967296 by norm_num]
    have := toU32_lt w
    generalize 2 ^ (32 * ws.length) = P at *
    omega

theorem msb_append (a b : List Int) :
    Spec.msbNumber (a ++ b) = Spec.msbNumber a * 2 ^ (32 * b.length) + Spec.msbNumber b := by
  conv_lhs => unfold Spec.msbNumber
  rw [List.foldl_append, msb_foldl]
  rfl

theorem msb_take (ws : List Int) (k : Nat) (h : k ≤ ws.length) :
    Spec.msbNumber ws / 2 ^ (32 * ws.length - 32 * k) = Spec.msbNumber (ws.take k) := by
  conv_lhs => rw [← List.take_append_drop k ws, msb_append]
  have e : 32 * (List.take k ws ++ List.drop k ws).length - 32 * k = 32 * (ws.drop k).length := by
    rw [List.take_append_drop, List.length_drop]; omega
  rw [e, Nat.add_comm, Nat.add_mul_div_right _ _ (Nat.two_pow_pos _), Nat.div_eq_of_lt (msb_lt _), Nat.zero_add]

theorem msb_take_succ (ws : List Int) (k : Nat) (h : k < ws.length) :
    Spec.msbNumber (ws.take (k + 1)) = Spec.msbNumber (ws.take k) * 4294967296 + toU32 ws[k] := by
  rw [List.take_succ_eq_append_getElem h, msb_append]
  simp [Spec.msbNumber]

/-- A field that lies in one word. -/
theorem msbField_one (ws : List Int) (k off bits : Nat) (h : k < ws.length) (hb : off + bits ≤ 32) :
    Spec.msbField ws (32 * k + off) bits = toU32 ws[k] / 2 ^ (32 - off - bits) % 2 ^ bits := by
  unfold Spec.msbField
  have e : 32 * ws.length - (32 * k + off) - bits = (32 * ws.length - 32 * (k + 1)) + (32 - off - bits) := by omega
  rw [e, Nat.pow_add, ← Nat.div_div_eq_div_mul, msb_take _ _ (by omega), msb_take_succ ws k h]
  have e2 : (4294967296 : Nat) = 2 ^ bits * 2 ^ off * 2 ^ (32 - off - bits) := by
    rw [← Nat.pow_add, ← Nat.pow_add, show bits + off + (32 - off - bits) = 32 by omega]
  rw [e2, ← Nat.mul_assoc, Nat.add_comm, Nat.add_mul_div_right _ _ (Nat.two_pow_pos _), ← Nat.mul_assoc, Nat.mul_right_comm,
    Nat.add_mul_mod_self_right]

/-- A field that lies in two words, the second contributing `s` bits. -/
theorem msbField_two (ws : List Int) (k off bits s : Nat) (h : k + 1 < ws.length) (hs : off + bits = 32 + s) (hs32 : s ≤ bits)
    (hb : bits ≤ 32) :
    Spec.msbField ws (32 * k + off) bits = toU32 ws[k] * 2 ^ s % 2 ^ bits + toU32 ws[k + 1] / 2 ^ (32 - s) := by
  unfold Spec.msbField
  have e : 32 * ws.length - (32 * k + off) - bits = (32 * ws.length - 32 * (k + 1 + 1)) + (32 - s) := by omega
  rw [e, Nat.pow_add, ← Nat.div_div_eq_div_mul, msb_take _ _ (by omega), msb_take_succ ws (k + 1) h,
    msb_take_succ ws k (by omega)]
  have e2 : (4294967296 : Nat) = 2 ^ s * 2 ^ (32 - s) := by
    rw [← Nat.pow_add, show s + (32 - s) = 32 by omega]
  have hlt : toU32 ws[k + 1] / 2 ^ (32 - s) < 2 ^ s := by
    rw [Nat.div_lt_iff_lt_mul (Nat.two_pow_pos _), ← e2]; exact toU32_lt _
  generalize Spec.msbNumber (ws.take k) = A
  generalize toU32 ws[k] = u
  generalize toU32 ws[k + 1] = v at *
  have e3 : ((A * 4294967296 + u) * 4294967296 + v) / 2 ^ (32 - s) = (A * 4294967296 + u) * 2 ^ s + v / 2 ^ (32 - s) := by
    conv_lhs => rw [show (A * 4294967296 + u) * 4294967296 = (A * 4294967296 + u) * (2 ^ s * 2 ^ (32 - s)) by rw [← e2]]
    rw [← Nat.mul_assoc, Nat.add_comm, Nat.add_mul_div_right _ _ (Nat.two_pow_pos _), Nat.add_comm]
  rw [e3]
  generalize v / 2 ^ (32 - s) = x at *
  have e4 : (2 : Nat) ^ bits = 2 ^ s * 2 ^ (bits - s) := by rw [← Nat.pow_add]; congr 1; omega
  have e5 : (4294967296 : Nat) = 2 ^ (bits - s) * 2 ^ (32 - (bits - s)) := by
    rw [← Nat.pow_add, show bits - s + (32 - (bits - s)) = 32 by omega]
  rw [e4, Nat.mul_comm u, Nat.mul_mod_mul_left, Nat.add_comm, Nat.mul_comm _ (2 ^ s), Nat.mod_mul,
    Nat.add_mul_mod_self_left, Nat.mod_eq_of_lt hlt, Nat.add_mul_div_left _ _ (Nat.two_pow_pos _), Nat.div_eq_of_lt hlt,
    Nat.zero_add, Nat.add_comm x]
  congr 2
  rw [e5, show A * (2 ^ (bits - s) * 2 ^ (32 - (bits - s))) = 2 ^ (bits - s) * (A * 2 ^ (32 - (bits - s))) by ring,
    Nat.add_comm, Nat.add_mul_mod_self_left]

theorem toU32_ishift_neg {w : Int} (hw : inI32 w) (r : Nat) {sh : Int} (hr : sh = -(r : Int)) :
    toU32 (ishift w sh) = toU32 w / 2 ^ r := by
  subst hr
  rw [C33_ishift _ _ hw.1 (by have := hw.2; omega)]
  unfold Spec.ishft
  by_cases h0 : r = 0
  · subst h0
    rw [if_pos (by omega)]
    have e0 : (-((0 : Nat) : Int)).toNat = 0 := by omega
    rw [e0, Nat.pow_zero, Nat.mul_one, Nat.div_one]
    exact Nat.mod_eq_of_lt (toU32_lt _)
  · rw [if_neg (by omega), show (-(-(r : Int))).toNat = r by omega]

theorem ishift_nonneg {w sh : Int} (h : sh < 0) : 0 ≤ ishift w sh := by
  unfold ishift
  rw [if_neg (by omega), if_pos h]
  split
  · exact Int.natCast_nonneg _
  · exact Int.ediv_nonneg (by omega) (by positivity)

theorem ishift_le {w sh : Int} (hw : inI32 w) (h : sh < 0) : ishift w sh < 4294967296 := by
  unfold ishift
  rw [if_neg (by omega), if_pos h]
  split
  · have : toU32 w / 2 ^ (-sh).toNat < 4294967296 := Nat.lt_of_le_of_lt (Nat.div_le_self _ _) (toU32_lt w)
    omega
  · rw [ishift_nonneg_div _ (by omega)]
    have : w.toNat / 2 ^ (-sh).toNat ≤ w.toNat := Nat.div_le_self _ _
    have := hw.2
    omega

/-- Every field inside the words is read as the bits of the string. -/
theorem diffField_spec (ws : List Int) (bits pos : Nat) (hw : ∀ w ∈ ws, inI32 w) (hb : bits ≤ 32) (h : pos / 32 < ws.length)
    (hfit : pos + bits ≤ 32 * ws.length) :
    diffField ws bits (pos / 32) (pos % 32 + 1) = .ok ((Spec.msbField ws pos bits : Nat) : Int) := by
  have hq : pos = 32 * (pos / 32) + pos % 32 := by omega
  have hoff : pos % 32 < 32 := by omega
  generalize hk : pos / 32 = k at *
  generalize ho : pos % 32 = off at *
  have hget : ws[k]? = some ws[k] := List.getElem?_eq_getElem h
  have hw0 : inI32 ws[k] := hw _ (List.getElem_mem h)
  unfold diffField
  simp only [hget]
  rw [and32_mask _ hb]
  by_cases hsp : off + bits ≤ 32
  · rw [if_neg (by omega), toU32_ishift_neg hw0 (32 - off - bits) (by omega), hq, msbField_one ws k off bits h hsp]
  · rw [if_pos (by omega)]
    obtain ⟨s, hs⟩ : ∃ s, off + bits = 32 + s := ⟨off + bits - 32, by omega⟩
    have h1 : k + 1 < ws.length := by omega
    have hget1 : ws[k + 1]? = some ws[k + 1] := List.getElem?_eq_getElem h1
    have hw1 : inI32 ws[k + 1] := hw _ (List.getElem_mem h1)
    simp only [hget1]
    rw [hq, msbField_two ws k off bits s h1 hs (by omega) hb]
    congr 1
    have hneg : (bits : Int) + ((off + 1 : Nat) : Int) - 33 - 32 < 0 := by omega
    have e1 := toU32_ishift_neg (w := ws[k + 1]) hw1 (32 - s) (sh := (bits : Int) + ((off + 1 : Nat) : Int) - 33 - 32) (by omega)
    have e2 : ishift ws[k + 1] ((bits : Int) + ((off + 1 : Nat) : Int) - 33 - 32) = ((toU32 ws[k + 1] / 2 ^ (32 - s) : Nat) : Int) := by
      rw [← e1, toU32_of_nonneg (ishift_nonneg hneg) (ishift_le hw1 hneg), Int.toNat_of_nonneg (ishift_nonneg hneg)]
    have e3 : toU32 (ishift ws[k] ((bits : Int) + ((off + 1 : Nat) : Int) - 33)) = toU32 ws[k] * 2 ^ s % 4294967296 := by
      rw [C33_ishift _ _ hw0.1 (by have := hw0.2; omega)]
      unfold Spec.ishft
      rw [if_pos (by omega), show ((bits : Int) + ((off + 1 : Nat) : Int) - 33).toNat = s by omega]
    rw [e2, e3]
    unfold or32
    rw [Int.toNat_natCast, Int.toNat_natCast]
    congr 1
    have hdvd : (2 : Nat) ^ bits ∣ 4294967296 := by
      rw [show (4294967296 : Nat) = 2 ^ 32 by norm_num]; exact Nat.pow_dvd_pow 2 hb
    have hlt : toU32 ws[k + 1] / 2 ^ (32 - s) < 2 ^ s := by
      rw [Nat.div_lt_iff_lt_mul (Nat.two_pow_pos _), ← Nat.pow_add, show s + (32 - s) = 32 by omega]; exact toU32_lt _
    have e4 : (2 : Nat) ^ bits = 2 ^ s * 2 ^ (bits - s) := by rw [← Nat.pow_add]; congr 1; omega
    rw [Nat.mod_mod_of_dvd _ hdvd, e4, Nat.mul_comm (toU32 ws[k]), Nat.mul_mod_mul_left,
      ← Nat.two_pow_add_eq_or_of_lt hlt]

/-- A field reaching beyond the words is an `IndexError`. -/
theorem diffField_short (ws : List Int) (bits pos : Nat) (hb : bits ≤ 32) (hfit : 32 * ws.length < pos + bits) :
    diffField ws bits (pos / 32) (pos % 32 + 1) = .error .indexError := by
  unfold diffField
  by_cases h : pos / 32 < ws.length
  · have h1 : ¬ pos / 32 + 1 < ws.length := by omega
    simp only [List.getElem?_eq_getElem h, List.getElem?_eq_none (Nat.le_of_not_lt h1)]
    rw [if_pos (by omega)]
  · simp only [List.getElem?_eq_none (Nat.le_of_not_lt h)]

theorem diffStep_spec (bits pos : Nat) (hb : bits ≤ 32) :
    diffStep bits (pos / 32) (pos % 32 + 1) = ((pos + bits) / 32, (pos + bits) % 32 + 1) := by
  unfold diffStep
  split
  · exact Prod.ext (by dsimp only; omega) (by dsimp only; omega)
  · exact Prod.ext (by dsimp only; omega) (by dsimp only; omega)

end Gempak
