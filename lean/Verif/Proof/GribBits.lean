import Verif.Spec.Grib
import Verif.Proof.Base
import Mathlib.Data.List.Induction
import Mathlib.Data.List.GetD

/-! Helper lemmas: bit strings as numbers. -/

namespace Gempak.Grib.Spec

theorem ofBits_foldl (bs : List Bool) (a : Nat) :
    bs.foldl (fun a b => 2 * a + b.toNat) a = a * 2 ^ bs.length + ofBits bs := by
  induction bs generalizing a with
  | nil => simp [ofBits]
  | cons b bs ih =>
    simp only [ofBits, List.foldl_cons, List.length_cons] at *
    rw [ih, ih (2 * 0 + b.toNat), Nat.pow_succ]
    simp only [Nat.mul_zero, Nat.zero_add, Nat.add_mul]
    rw [show 2 * a * 2 ^ bs.length = a * (2 ^ bs.length * 2) by
      rw [Nat.mul_comm 2 a, Nat.mul_assoc, Nat.mul_comm 2]]
    omega

theorem ofBits_append (a b : List Bool) : ofBits (a ++ b) = ofBits a * 2 ^ b.length + ofBits b := by
  rw [ofBits, List.foldl_append, ofBits_foldl]; rfl

theorem ofBits_lt (a : List Bool) : ofBits a < 2 ^ a.length := by
  induction a with
  | nil => simp [ofBits]
  | cons b bs ih =>
    have := ofBits_append [b] bs
    simp only [List.singleton_append] at this
    rw [this, List.length_cons, Nat.pow_succ]
    have hb : ofBits [b] ≤ 1 := by cases b <;> decide
    have : ofBits [b] * 2 ^ bs.length ≤ 1 * 2 ^ bs.length := Nat.mul_le_mul_right _ hb
    omega

theorem ofBits_replicate_false (k : Nat) : ofBits (List.replicate k false) = 0 := by
  induction k with
  | zero => rfl
  | succ k ih =>
    rw [List.replicate_succ, ← List.singleton_append, ofBits_append, ih]
    simp [ofBits]

theorem take0_eq (m p : Nat) (bs : List Bool) (h : p + m ≤ bs.length) :
    take0 m p bs = (bs.drop p).take m := by
  apply List.ext_getElem
  · simp [take0]; omega
  · intro i h1 h2
    simp only [take0, List.length_map, List.length_range] at h1
    simp only [take0, List.getElem_map, List.getElem_range, List.getElem_take, List.getElem_drop]
    rw [List.getD_eq_getElem _ _ (by omega)]

theorem take0_pad (m p z : Nat) (bs : List Bool) :
    take0 m p bs = take0 m p (bs ++ List.replicate z false) := by
  unfold take0
  apply List.map_congr_left
  intro i _
  simp only [List.getD_eq_getElem?_getD, List.getElem?_append, List.getElem?_replicate]
  split
  · rfl
  · rename_i h
    rw [List.getElem?_eq_none (by omega)]
    split <;> rfl

theorem ofBits_take0 (m p : Nat) (bs : List Bool) (h : p + m ≤ bs.length) :
    ofBits (take0 m p bs) = ofBits bs / 2 ^ (bs.length - p - m) % 2 ^ m := by
  rw [take0_eq m p bs h]
  have hsplit : bs = bs.take p ++ ((bs.drop p).take m ++ (bs.drop p).drop m) := by
    rw [List.take_append_drop, List.take_append_drop]
  have hl : ((bs.drop p).drop m).length = bs.length - p - m := by simp; omega
  have hm : ((bs.drop p).take m).length = m := by simp; omega
  have hlt := ofBits_lt ((bs.drop p).drop m)
  have hlt2 := ofBits_lt ((bs.drop p).take m)
  rw [hl] at hlt
  rw [hm] at hlt2
  conv => rhs; rw [show ofBits bs = _ from congrArg ofBits hsplit]
  rw [ofBits_append, ofBits_append, List.length_append, hl, hm, Nat.pow_add]
  rw [show ofBits (bs.take p) * (2 ^ m * 2 ^ (bs.length - p - m)) +
      (ofBits ((bs.drop p).take m) * 2 ^ (bs.length - p - m) + ofBits ((bs.drop p).drop m)) =
      ofBits ((bs.drop p).drop m) + (ofBits (bs.take p) * 2 ^ m + ofBits ((bs.drop p).take m)) * 2 ^ (bs.length - p - m) by
    rw [Nat.add_mul, Nat.mul_assoc]; omega]
  rw [Nat.add_mul_div_right _ _ (Nat.two_pow_pos _), Nat.div_eq_of_lt hlt, Nat.zero_add,
    Nat.add_comm, Nat.add_mul_mod_self_right, Nat.mod_eq_of_lt hlt2]

@[simp] theorem bitsMSB_length (n v : Nat) : (bitsMSB n v).length = n := by simp [bitsMSB]

theorem bitsMSB_succ (n v : Nat) : bitsMSB (n + 1) v = v.testBit n :: bitsMSB n v := by
  unfold bitsMSB
  rw [List.range_succ_eq_map, List.map_cons, List.map_map]
  congr 1
  apply List.map_congr_left
  intro i _
  simp only [Function.comp, Nat.succ_eq_add_one]
  congr 1
  omega

theorem ofBits_bitsMSB (n v : Nat) : ofBits (bitsMSB n v) = v % 2 ^ n := by
  induction n with
  | zero => simp [bitsMSB, ofBits, Nat.mod_one]
  | succ n ih =>
    rw [bitsMSB_succ, ← List.singleton_append, ofBits_append, ih, bitsMSB_length,
      Nat.mod_pow_succ (b := 2), Nat.testBit_eq_decide_div_mod_eq]
    have hlt : v / 2 ^ n % 2 < 2 := Nat.mod_lt _ (by decide)
    rcases (by omega : v / 2 ^ n % 2 = 0 ∨ v / 2 ^ n % 2 = 1) with h | h
    · rw [h]; simp [ofBits]
    · rw [h]; simp [ofBits]; omega

/-- Horner value of a list of digits in base `2 ^ n`. -/
def horner (n : Nat) (r : List Nat) : Nat := r.foldl (fun a x => a * 2 ^ n + x) 0

theorem horner_append_single (n : Nat) (r : List Nat) (x : Nat) :
    horner n (r ++ [x]) = horner n r * 2 ^ n + x := by
  simp [horner, List.foldl_append]

theorem bitString_append (n : Nat) (a b : List Nat) :
    bitString n (a ++ b) = bitString n a ++ bitString n b := by simp [bitString]

theorem bitString_length (n : Nat) (r : List Nat) : (bitString n r).length = n * r.length := by
  induction r with
  | nil => simp [bitString]
  | cons a l ih =>
    have := bitString_append n [a] l
    simp only [List.singleton_append] at this
    rw [this, List.length_append, ih]
    simp [bitString, Nat.mul_succ]; omega

theorem ofBits_bitString (n : Nat) (r : List Nat) (h : ∀ x ∈ r, x < 2 ^ n) :
    ofBits (bitString n r) = horner n r := by
  induction r using List.reverseRecOn with
  | nil => rfl
  | append_singleton l a ih =>
    rw [bitString_append, ofBits_append, horner_append_single, ih (fun x hx => h x (by simp [hx]))]
    simp only [bitString, List.flatMap_singleton, bitsMSB_length, ofBits_bitsMSB]
    rw [Nat.mod_eq_of_lt (h a (by simp))]

theorem horner_lt (n : Nat) (r : List Nat) (h : ∀ x ∈ r, x < 2 ^ n) :
    horner n r < 2 ^ (n * r.length) := by
  rw [← ofBits_bitString n r h, ← bitString_length]; exact ofBits_lt _

theorem horner_take (n : Nat) (r : List Nat) (h : ∀ x ∈ r, x < 2 ^ n) (k : Nat) :
    horner n (r.take k) = horner n r / 2 ^ (n * (r.length - k)) := by
  have h1 : ofBits (bitString n r) = ofBits (bitString n (r.take k)) * 2 ^ (n * (r.length - k)) +
      ofBits (bitString n (r.drop k)) := by
    conv => lhs; rw [← List.take_append_drop k r, bitString_append, ofBits_append]
    rw [bitString_length]; simp
  have h2 := ofBits_lt (bitString n (r.drop k))
  rw [bitString_length, List.length_drop] at h2
  rw [ofBits_bitString n r h, ofBits_bitString n (r.take k) (fun x hx => h x (List.mem_of_mem_take hx))] at h1
  rw [h1, Nat.add_comm, Nat.add_mul_div_right _ _ (Nat.two_pow_pos _), Nat.div_eq_of_lt h2, Nat.zero_add]

theorem horner_take_succ (n : Nat) (r : List Nat) (k : Nat) (hk : k < r.length) :
    horner n (r.take (k + 1)) = horner n (r.take k) * 2 ^ n + r[k] := by
  rw [List.take_succ_eq_append_getElem hk, horner_append_single]

/-- Value of a word of the zero-filled bit string of `r`. -/
theorem wordAt_bitString (n : Nat) (r : List Nat) (h : ∀ x ∈ r, x < 2 ^ n) (w : Nat)
    (hw : w < wordCount n r.length) :
    wordAt (bitString n r) w =
      horner n r * 2 ^ (32 * wordCount n r.length - n * r.length) / 2 ^ (32 * (wordCount n r.length - 1 - w)) % 2 ^ 32 := by
  have hL : n * r.length ≤ 32 * wordCount n r.length := by unfold wordCount; omega
  unfold wordAt
  rw [take0_pad 32 (32 * w) (32 * wordCount n r.length - n * r.length)]
  have hlen : (bitString n r ++ List.replicate (32 * wordCount n r.length - n * r.length) false).length
      = 32 * wordCount n r.length := by
    rw [List.length_append, bitString_length, List.length_replicate]; omega
  rw [ofBits_take0 _ _ _ (by rw [hlen]; omega), hlen, ofBits_append, ofBits_replicate_false,
    List.length_replicate, ofBits_bitString n r h, Nat.add_zero]
  congr 3
  omega

end Gempak.Grib.Spec
