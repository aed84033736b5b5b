import Verif.Model.Base

/-! Helper lemmas about bytes and words. -/

namespace Gempak

@[simp] theorem natToLE_length (n k : Nat) : (natToLE n k).length = k := by
  induction k generalizing n with
  | zero => rfl
  | succ k ih => simp [natToLE, ih]

@[simp] theorem encNat_length (e : Endian) (k n : Nat) : (encNat e k n).length = k := by
  cases e <;> simp [encNat]

theorem leToNat_natToLE (n k : Nat) : leToNat (natToLE n k) = n % 256 ^ k := by
  induction k generalizing n with
  | zero => simp [natToLE, leToNat, Nat.mod_one]
  | succ k ih =>
    simp only [natToLE, leToNat, ih, UInt8.toNat_ofNat', Nat.reducePow]
    rw [Nat.pow_succ, Nat.mul_comm (256 ^ k) 256, Nat.mod_mul]

theorem leToNat_lt (bs : Bytes) : leToNat bs < 256 ^ bs.length := by
  induction bs with
  | nil => simp [leToNat]
  | cons b bs ih =>
    simp only [leToNat, List.length_cons, Nat.pow_succ]
    have := b.toNat_lt
    omega

theorem natToLE_leToNat (bs : Bytes) : natToLE (leToNat bs) bs.length = bs := by
  induction bs with
  | nil => rfl
  | cons b bs ih =>
    have hb := b.toNat_lt
    simp only [leToNat, List.length_cons, natToLE]
    have h1 : (b.toNat + 256 * leToNat bs) / 256 = leToNat bs := by omega
    have h2 : UInt8.ofNat (b.toNat + 256 * leToNat bs) = b := by
      apply UInt8.toNat_inj.mp
      simp only [UInt8.toNat_ofNat', Nat.reducePow]
      omega
    rw [h1, ih, h2]

theorem decNat_encNat (e : Endian) (k n : Nat) : decNat e (encNat e k n) = n % 256 ^ k := by
  cases e <;> simp [encNat, decNat, leToNat_natToLE]

theorem encNat_decNat (e : Endian) (bs : Bytes) : encNat e bs.length (decNat e bs) = bs := by
  cases e
  · simp [encNat, decNat, natToLE_leToNat]
  · have := natToLE_leToNat bs.reverse
    simp only [List.length_reverse] at this
    simp [encNat, decNat, this]

theorem decNat_lt (e : Endian) (bs : Bytes) : decNat e bs < 256 ^ bs.length := by
  cases e
  · exact leToNat_lt bs
  · simpa [decNat] using leToNat_lt bs.reverse

theorem toU32_lt (i : Int) : toU32 i < 4294967296 := by
  unfold toU32; omega

theorem toI32_toU32 {i : Int} (h : inI32 i) : toI32 (toU32 i) = i := by
  unfold inI32 at h; unfold toI32 toU32; split <;> omega

theorem toU32_toI32 {n : Nat} (h : n < 4294967296) : toU32 (toI32 n) = n := by
  unfold toI32 toU32; split <;> omega

theorem inI32_toI32 {n : Nat} (h : n < 4294967296) : inI32 (toI32 n) := by
  unfold toI32 inI32; split <;> omega

theorem unpackI32_packI32 (e : Endian) {i : Int} (h : inI32 i) :
    ∃ bs, packI32 e i = .ok bs ∧ bs.length = 4 ∧ unpackI32 e bs = .ok i := by
  refine ⟨_, if_pos h, by simp, ?_⟩
  have := toU32_lt i
  simp only [unpackI32, encNat_length, if_true, decNat_encNat]
  rw [Nat.mod_eq_of_lt (by omega), toI32_toU32 h]

theorem unpackF32_packF32 (e : Endian) (f : F32) : unpackF32 e (packF32 e f) = .ok f := by
  simp only [unpackF32, packF32, encNat_length, if_true, decNat_encNat]
  have := f.isLt
  rw [Nat.mod_eq_of_lt (by omega)]
  simp

end Gempak
