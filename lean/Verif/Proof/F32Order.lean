import Mathlib.Order.Monotone.Basic
import Mathlib.Tactic.Ring
import Mathlib.Tactic.Linarith
import Mathlib.Tactic.FieldSimp
import Verif.Proof.F32
import Verif.Model.VgfEnc

/-!
# The order of single precision patterns is the order of their values
-/

namespace Gempak

/-- Magnitude in units of the smallest number. -/
def f32Mag (n : ℕ) : ℕ := if n / 2 ^ 23 = 0 then n % 2 ^ 23 else (2 ^ 23 + n % 2 ^ 23) * 2 ^ (n / 2 ^ 23 - 1)

theorem f32Mag_lt_succ (n : ℕ) : f32Mag n < f32Mag (n + 1) := by
  unfold f32Mag
  have hcase : (n + 1) / 2 ^ 23 = n / 2 ^ 23 ∧ (n + 1) % 2 ^ 23 = n % 2 ^ 23 + 1 ∨
      (n + 1) / 2 ^ 23 = n / 2 ^ 23 + 1 ∧ (n + 1) % 2 ^ 23 = 0 ∧ n % 2 ^ 23 = 2 ^ 23 - 1 := by omega
  generalize n / 2 ^ 23 = e at *
  generalize n % 2 ^ 23 = f at *
  rcases hcase with ⟨h1, h2⟩ | ⟨h1, h2, h3⟩
  · rw [h1, h2]
    split
    · omega
    · exact Nat.mul_lt_mul_of_pos_right (by omega) (by positivity)
  · rw [h1, h2, h3, if_neg (Nat.succ_ne_zero e)]
    by_cases h : e = 0
    · rw [if_pos h, h]; norm_num
    · obtain ⟨k, rfl⟩ : ∃ k, e = k + 1 := ⟨e - 1, by omega⟩
      rw [if_neg h, show k + 1 - 1 = k from rfl, show k + 1 + 1 - 1 = k + 1 from rfl]
      have h4 : (2 : ℕ) ^ (k + 1) = 2 ^ k * 2 := pow_succ 2 k
      rw [h4]
      have : 0 < (2 : ℕ) ^ k := by positivity
      clear h1 h4
      generalize (2 : ℕ) ^ k = t at *
      omega

theorem f32Mag_strictMono : StrictMono f32Mag := strictMono_nat_of_lt_succ f32Mag_lt_succ

theorem f32Mag_zero : f32Mag 0 = 0 := rfl

/-- The value of a pattern. -/
theorem f32Value_mag {p : F32} {v : ℚ} (h : f32Value p = some v) :
    v = (if p.toNat < 2 ^ 31 then 1 else -1) * (f32Mag (p.toNat % 2 ^ 31) : ℚ) / 2 ^ 149 := by
  have hp : p.toNat < 2 ^ 32 := p.isLt
  unfold f32Value at h
  dsimp only at h
  have e1 : p.toNat % 2 ^ 31 / 2 ^ 23 = p.toNat / 2 ^ 23 % 256 := by omega
  have e2 : p.toNat % 2 ^ 31 % 2 ^ 23 = p.toNat % 2 ^ 23 := by omega
  have e3 : (p.toNat / 2 ^ 31 = 0) ↔ p.toNat < 2 ^ 31 := by omega
  unfold f32Mag
  rw [e1, e2]
  simp only [e3] at h
  generalize p.toNat / 2 ^ 23 % 256 = e at *
  split at h
  · cases h
  · split at h
    · rename_i h0
      rw [if_pos h0]
      exact (Option.some.inj h).symm
    · rename_i h0
      rw [if_neg h0, ← Option.some.inj h]
      obtain ⟨k, rfl⟩ : ∃ k, e = k + 1 := ⟨e - 1, by omega⟩
      rw [show k + 1 - 1 = k from rfl, Nat.cast_mul, show (((k + 1 : ℕ) : ℤ) - 150) = (k : ℤ) - (149 : ℕ) from by push_cast; ring,
        zpow_sub₀ (by norm_num), zpow_natCast, zpow_natCast]
      push_cast
      ring

theorem f32Value_key {p : F32} {v : ℚ} (h : f32Value p = some v) :
    v * 2 ^ 149 = if 0 ≤ f32Key p then (f32Mag (f32Key p).toNat : ℚ) else -(f32Mag (-f32Key p).toNat : ℚ) := by
  have hp : p.toNat < 2 ^ 32 := p.isLt
  rw [f32Value_mag h]
  unfold f32Key
  by_cases hs : p.toNat < 2 ^ 31
  · rw [if_pos hs, if_pos hs, if_pos (by omega), show p.toNat % 2 ^ 31 = p.toNat by omega, Int.toNat_natCast]
    field_simp
  · rw [if_neg hs, if_neg hs, show p.toNat % 2 ^ 31 = p.toNat - 2 ^ 31 by omega]
    by_cases h0 : p.toNat - 2 ^ 31 = 0
    · rw [h0, if_pos (by simp)]
      simp [f32Mag_zero]
    · rw [if_neg (by omega), neg_neg, Int.toNat_natCast]
      field_simp

/-- Patterns compare as their values do. -/
theorem f32Key_le {a b : F32} {x y : ℚ} (ha : f32Value a = some x) (hb : f32Value b = some y) : f32Key a ≤ f32Key b ↔ x ≤ y := by
  have h : x ≤ y ↔ x * 2 ^ 149 ≤ y * 2 ^ 149 := (mul_le_mul_iff_of_pos_right (by positivity)).symm
  rw [h, f32Value_key ha, f32Value_key hb]
  generalize f32Key a = s
  generalize f32Key b = t
  have mono := f32Mag_strictMono
  have pos : ∀ n : ℕ, 0 < n → (0 : ℚ) < (f32Mag n : ℚ) := by
    intro n hn
    have := mono hn
    exact_mod_cast (by rw [f32Mag_zero] at this; exact this)
  have nn : ∀ n : ℕ, (0 : ℚ) ≤ (f32Mag n : ℚ) := fun n => by positivity
  by_cases hs : 0 ≤ s <;> by_cases ht : 0 ≤ t
  · rw [if_pos hs, if_pos ht, Nat.cast_le, mono.le_iff_le]; omega
  · rw [if_pos hs, if_neg ht]
    have := pos (-t).toNat (by omega)
    have := nn s.toNat
    constructor
    · intro; omega
    · intro; linarith
  · rw [if_neg hs, if_pos ht]
    have := pos (-s).toNat (by omega)
    have := nn t.toNat
    constructor
    · intro; linarith
    · intro; omega
  · rw [if_neg hs, if_neg ht, neg_le_neg_iff, Nat.cast_le, mono.le_iff_le]; omega

/-- A pattern is one number exactly when positions agree. -/
theorem f32Key_eq {a b : F32} {x y : ℚ} (ha : f32Value a = some x) (hb : f32Value b = some y) : f32Key a = f32Key b ↔ x = y := by
  have h1 := f32Key_le ha hb
  have h2 := f32Key_le hb ha
  constructor
  · intro h
    exact le_antisymm (h1.1 (by omega)) (h2.1 (by omega))
  · intro h
    have a1 := h1.2 h.le
    have a2 := h2.2 h.ge
    omega

/-- A number is not not-a-number. -/
theorem f32Nan_value {a : F32} {x : ℚ} (h : f32Value a = some x) : f32Nan a = false := by
  unfold f32Value at h
  dsimp only at h
  split at h
  · cases h
  · unfold f32Nan
    simp only [decide_eq_false_iff_not]
    have := a.isLt
    omega

end Gempak
