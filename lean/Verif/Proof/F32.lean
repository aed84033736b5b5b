import Mathlib.Tactic.Ring
import Mathlib.Tactic.Linarith
import Mathlib.Tactic.IntervalCases
import Verif.Model.GridWrite

/-!
# Single precision numbers: which numbers are represented exactly
-/

namespace Gempak

/-- A normal number. -/
theorem f32Value_normal (m e : ℕ) (h1 : 2 ^ 23 ≤ m) (h2 : m < 2 ^ 24) (h3 : 1 ≤ e) (h4 : e ≤ 254) :
    f32Value (BitVec.ofNat 32 (e * 2 ^ 23 + (m - 2 ^ 23))) = some ((m : ℚ) * 2 ^ ((e : ℤ) - 150)) := by
  have hn : (BitVec.ofNat 32 (e * 2 ^ 23 + (m - 2 ^ 23))).toNat = e * 2 ^ 23 + (m - 2 ^ 23) := by
    rw [BitVec.toNat_ofNat, Nat.mod_eq_of_lt]
    omega
  unfold f32Value
  rw [hn]
  have a1 : (e * 2 ^ 23 + (m - 2 ^ 23)) / 2 ^ 31 = 0 := by omega
  have a2 : (e * 2 ^ 23 + (m - 2 ^ 23)) / 2 ^ 23 % 256 = e := by omega
  have a3 : (e * 2 ^ 23 + (m - 2 ^ 23)) % 2 ^ 23 = m - 2 ^ 23 := by omega
  have a4 : 2 ^ 23 + (m - 2 ^ 23) = m := by omega
  dsimp only
  rw [a1, a2, a3, a4, if_pos rfl, if_neg (by omega), if_neg (by omega), one_mul]

/-- Powers of two. -/
theorem f32Value_pow (k : ℤ) (h1 : -126 ≤ k) (h2 : k ≤ 127) : ∃ p, f32Value p = some ((2 : ℚ) ^ k) := by
  refine ⟨_, (f32Value_normal (2 ^ 23) (k + 127).toNat (le_refl _) (by decide) (by omega) (by omega)).trans ?_⟩
  congr 1
  have : (((k + 127).toNat : ℤ)) = k + 127 := Int.toNat_of_nonneg (by omega)
  rw [this]
  have h23 : ((2 ^ 23 : ℕ) : ℚ) = (2 : ℚ) ^ (23 : ℤ) := by norm_num
  rw [h23, ← zpow_add₀ (by norm_num)]
  congr 1
  ring

theorem exists_shift : ∀ d n : ℕ, 1 ≤ n → n < 2 ^ 24 → 2 ^ 24 ≤ n * 2 ^ d → ∃ k, k ≤ d ∧ 2 ^ 23 ≤ n * 2 ^ k ∧ n * 2 ^ k < 2 ^ 24 := by
  intro d
  induction d with
  | zero => intro n h1 h2 h3; omega
  | succ d ih =>
    intro n h1 h2 h3
    by_cases h : 2 ^ 24 ≤ n * 2 ^ d
    · obtain ⟨k, hk, hk2⟩ := ih n h1 h2 h
      exact ⟨k, by omega, hk2⟩
    · refine ⟨d, by omega, ?_, by omega⟩
      have h4 : n * 2 ^ (d + 1) = n * 2 ^ d * 2 := by rw [pow_succ, ← mul_assoc]
      omega

/-- Natural numbers below 2²⁴. -/
theorem f32Value_nat (n : ℕ) (h : n < 2 ^ 24) : ∃ p, f32Value p = some (n : ℚ) := by
  rcases Nat.eq_zero_or_pos n with rfl | h0
  · refine ⟨0#32, ?_⟩
    unfold f32Value
    simp
  · obtain ⟨k, hk, h1, h2⟩ := exists_shift 24 n h0 h (by omega)
    refine ⟨_, (f32Value_normal (n * 2 ^ k) (150 - k) h1 h2 (by omega) (by omega)).trans ?_⟩
    congr 1
    have : (((150 - k : ℕ) : ℤ)) - 150 = -(k : ℤ) := by omega
    rw [this, zpow_neg, zpow_natCast]
    push_cast
    rw [mul_assoc, mul_inv_cancel₀ (by positivity), mul_one]

theorem f32Value_one : f32Value oneF32 = some 1 := by
  have := f32Value_normal (2 ^ 23) 127 (le_refl _) (by decide) (by omega) (by omega)
  have h : oneF32 = BitVec.ofNat 32 (127 * 2 ^ 23 + (2 ^ 23 - 2 ^ 23)) := by decide
  rw [h, this]
  norm_num

/-- The missing value of a file. -/
theorem f32Value_missing : f32Value missingF32 = some (-9999) := by
  unfold f32Value
  have a1 : missingF32.toNat / 2 ^ 31 = 1 := by decide
  have a2 : missingF32.toNat / 2 ^ 23 % 256 = 140 := by decide
  have a3 : missingF32.toNat % 2 ^ 23 = 1850368 := by decide
  dsimp only
  rw [a1, a2, a3, if_neg (by omega), if_neg (by omega), if_neg (by omega)]
  norm_num

/-- `struct.pack('f', x)` rounds to a nearest number, and succeeds at least for numbers it can represent. -/
structure GridEnv.Rounds (env : GridEnv) : Prop where
  ok : ∀ p q, f32Value p = some q → ∃ p', env.f32 q = .ok p'
  nearest : ∀ q p, env.f32 q = .ok p → ∃ v, f32Value p = some v ∧ ∀ p' v', f32Value p' = some v' → |v - q| ≤ |v' - q|

theorem GridEnv.Rounds.exact {env : GridEnv} (h : env.Rounds) {q : ℚ} {p p' : F32} (hp : f32Value p = some q)
    (h2 : env.f32 q = .ok p') : f32Value p' = some q := by
  obtain ⟨v, hv, hn⟩ := h.nearest q p' h2
  have := hn p q hp
  rw [sub_self, abs_zero] at this
  have h0 : v - q = 0 := abs_eq_zero.1 (le_antisymm this (abs_nonneg _))
  rw [hv, sub_eq_zero.1 h0]

theorem GridEnv.Rounds.nat {env : GridEnv} (h : env.Rounds) {n : ℕ} (hn : n < 2 ^ 24) :
    ∃ p, env.f32 n = .ok p ∧ f32Value p = some (n : ℚ) := by
  obtain ⟨p, hp⟩ := f32Value_nat n hn
  obtain ⟨p', hp'⟩ := h.ok p _ hp
  exact ⟨p', hp', h.exact hp hp'⟩

theorem f32Int_nat {p : F32} {n : ℕ} (h : f32Value p = some (n : ℚ)) : f32Int p = .ok (n : Int) := by
  unfold f32Int
  rw [h]
  have : (0 : ℚ) ≤ n := by positivity
  simp only [if_pos this, Int.floor_natCast]

end Gempak
