import Mathlib.Data.List.Forall2
import Verif.Proof.F32
import Verif.Props.Grib
import Verif.Spec.Grid

/-!
# Packed grids in files: exactness of single points
-/

namespace Gempak
open Grib Spec

theorem imaxQ (n : ℕ) : (imaxOf n : ℚ) = 2 ^ n - 1 := by
  unfold imaxOf
  have := Nat.two_pow_pos n
  push_cast [Nat.cast_sub this]
  rfl

theorem pow_ge_two {n : ℕ} (h : 1 ≤ n) : (2 : ℚ) ≤ 2 ^ n := by
  have : (2 : ℚ) ^ 1 ≤ 2 ^ n := pow_le_pow_right₀ (by norm_num) h
  simpa using this

/-- Half a step is bounded by the range. -/
theorem half_step_le (n : ℕ) (hn1 : 1 ≤ n) (q : ℚ) (hq : (imaxOf n : ℚ) / 2 ^ 126 < q) :
    (2 : ℚ) ^ (-(scaleExp n q)) / 2 ≤ q / (2 ^ n - 3 / 2) := by
  obtain ⟨_, h2, _⟩ := scaleExp_spec n hn1 q hq
  have h3 := h2 (scaleExp n q + 1) (by omega)
  have h4 := roundEven_ge (q * 2 ^ (scaleExp n q + 1))
  have h5 : (imaxOf n : ℚ) ≤ roundEven (q * 2 ^ (scaleExp n q + 1)) := by exact_mod_cast h3
  rw [imaxQ] at h5
  have h6 := pow_ge_two hn1
  have hp : (0 : ℚ) < 2 ^ scaleExp n q := by positivity
  rw [zpow_add₀ (by norm_num), zpow_one] at h4 h5
  rw [zpow_neg, div_le_div_iff₀ (by norm_num) (by linarith), inv_mul_le_iff₀ hp]
  linarith

/-- The scale is a power of two within the exponents of single precision. -/
theorem scale_range (n : ℕ) (hn1 : 1 ≤ n) (q : ℚ) (hr : roundEven q ≤ 2147483647) :
    -126 ≤ -(scaleExp n q) ∧ -(scaleExp n q) ≤ 127 := by
  by_cases hq : (imaxOf n : ℚ) / 2 ^ 126 < q
  · obtain ⟨h1, h2, _⟩ := scaleExp_spec n hn1 q hq
    have him : (1 : ℚ) ≤ imaxOf n := by exact_mod_cast imaxOf_pos n hn1
    have hq0 : 0 < q := lt_of_le_of_lt (by positivity) hq
    have hqu : q ≤ 2 ^ 32 := by
      have a := roundEven_le q
      have b : (roundEven q : ℚ) ≤ 2147483647 := by exact_mod_cast hr
      norm_num; linarith
    constructor
    · -- e ≤ 126
      by_contra hc
      have he : (126 : ℤ) ≤ scaleExp n q := by omega
      have : (2 : ℚ) ^ (126 : ℤ) ≤ 2 ^ scaleExp n q := zpow_le_zpow_right₀ (by norm_num) he
      have h7 : (imaxOf n : ℚ) < q * 2 ^ (126 : ℤ) := by
        rw [div_lt_iff₀ (by positivity)] at hq
        exact_mod_cast hq
      have h8 : q * 2 ^ (126 : ℤ) ≤ q * 2 ^ scaleExp n q := mul_le_mul_of_nonneg_left this hq0.le
      linarith
    · by_contra hc
      have he : scaleExp n q + 1 ≤ (-34 : ℤ) := by omega
      have h3 := h2 (scaleExp n q + 1) (by omega)
      have h4 := roundEven_ge (q * 2 ^ (scaleExp n q + 1))
      have h5 : (imaxOf n : ℚ) ≤ roundEven (q * 2 ^ (scaleExp n q + 1)) := by exact_mod_cast h3
      have : (2 : ℚ) ^ (scaleExp n q + 1) ≤ 2 ^ (-34 : ℤ) := zpow_le_zpow_right₀ (by norm_num) he
      have h8 : q * 2 ^ (scaleExp n q + 1) ≤ 2 ^ 32 * 2 ^ (-34 : ℤ) := mul_le_mul hqu this (by positivity) (by norm_num)
      norm_num at h8
      linarith
  · rw [scaleExp_tiny n q hq]; omega

theorem packGrib_range {grid : List ℚ} {missing : ℚ} {n : ℤ} {r : ℚ × ℚ × List Int} (h : packGrib grid missing n = .ok r) :
    1 ≤ n ∧ n ≤ 31 ∧ roundEven ((qRange grid missing).2 - (qRange grid missing).1) ≤ 2147483647 := by
  unfold packGrib at h
  split at h
  · cases h
  · rename_i hn
    dsimp only at h
    split at h
    · cases h
    · rename_i hr
      push Not at hr
      exact ⟨by omega, by omega, hr.2⟩

/-- Reading a packed grid with the missing flag: every point is kept missing, or within tolerance, or the range is large. -/
theorem packed_points (a : ℚ) (l : List ℚ) (n : ℕ) (hn1 : 1 ≤ n) (hn2 : n ≤ 31) (hL : 32 < n * (a :: l).length)
    (ref scale : ℚ) (w : List Int) (h : packGrib (a :: l) (-9999) n = .ok (ref, scale, w)) :
    (∃ k : ℤ, -126 ≤ k ∧ k ≤ 127 ∧ scale = 2 ^ k) ∧ ref ∈ a :: l ∧ (2 ≤ w.length) ∧
    ∀ (R δ rv : ℚ), (∀ x ∈ a :: l, ∀ y ∈ a :: l, x - y ≤ R) → |rv - ref| ≤ δ →
      ∃ out, readGrib w n (a :: l).length rv scale (some (-9999)) = .ok (some out) ∧
        List.Forall₂ (fun x y => (x = -9999 → y = -9999) ∧
          (x ≠ -9999 → (y = -9999 ∧ (2 : ℚ) ^ n - 3 / 2 ≤ R) ∨ |y - x| ≤ tolerance n R δ)) (a :: l) out := by
  have hL' : 2 ≤ wordCount n (a :: l).length := by unfold wordCount; omega
  obtain ⟨q, hq0, hb, hqe, hre, hcase⟩ := packGrib_ok a l (-9999) n hn1 hn2 hL' ref scale w h
  have hrange := (packGrib_range h).2.2
  rw [qRange_cons] at hrange
  have h2n := pow_ge_two hn1
  have tol_ge : ∀ R δ : ℚ, 0 ≤ R → δ ≤ tolerance n R δ := by
    intro R δ hR
    unfold tolerance
    have : 0 ≤ R / (2 ^ n - 3 / 2) := div_nonneg hR (by linarith)
    have : (0 : ℚ) ≤ 1 / 2 ^ 95 := by positivity
    linarith
  have hRq : ∀ R : ℚ, (∀ x ∈ a :: l, ∀ y ∈ a :: l, x - y ≤ R) → q ≤ R := fun R hR => by
    rw [hqe]; exact hR _ (qMax_mem a l) _ (qMin_mem a l)
  refine ⟨?_, hre ▸ qMin_mem a l, ?_, ?_⟩
  · rcases hcase with ⟨_, _, rfl, _⟩ | ⟨_, rfl, _⟩
    · exact ⟨0, by omega, by omega, by simp⟩
    · have := scale_range n hn1 q (by rw [hqe]; exact hrange)
      exact ⟨_, this.1, this.2, rfl⟩
  · rcases hcase with ⟨_, _, _, rfl⟩ | ⟨_, _, rfl⟩
    · simpa using hL'
    · simpa [packed] using hL'
  intro R δ rv hR hrv
  have hqR := hRq R hR
  have hR0 : 0 ≤ R := le_trans hq0 hqR
  rcases hcase with ⟨hq, hm, rfl, rfl⟩ | ⟨hne, rfl, rfl⟩
  · have hread := readGrib_packed n hn1 hn2 (List.replicate (a :: l).length 0)
      (by intro x hx; rw [List.eq_of_mem_replicate hx]; exact Nat.two_pow_pos _) (by simpa using hL') rv 1 (some (-9999))
    rw [packed_zeros, List.length_replicate] at hread
    refine ⟨_, hread, ?_⟩
    rw [List.forall₂_iff_get]
    refine ⟨by simp, ?_⟩
    intro k h1 h2
    have hmem : (a :: l)[k] ∈ a :: l := List.getElem_mem _
    have hbk := hb _ hmem
    have hi := imaxOf_pos n hn1
    simp only [List.get_eq_getElem, List.getElem_map, List.getElem_replicate, dequantOne]
    rw [if_neg (by omega)]
    refine ⟨fun heq => absurd (heq ▸ hmem) hm, fun _ => Or.inr ?_⟩
    rw [show (a :: l)[k] = ref by linarith]
    simp only [Nat.cast_zero, zero_mul, add_zero]
    exact le_trans hrv (tol_ge R δ hR0)
  · have hread := readGrib_packed n hn1 hn2 ((a :: l).map (quantOne n (-9999) ref (scaleExp n q)))
      (by
        intro x hx
        obtain ⟨y, hy, rfl⟩ := List.mem_map.mp hx
        exact lt_of_le_of_lt (quantOne_le n hn1 _ _ _ _ (hb y hy).2 hq0) (imaxOf_lt n))
      (by simpa using hL') rv (2 ^ (-(scaleExp n q))) (some (-9999))
    rw [List.length_map] at hread
    refine ⟨_, hread, ?_⟩
    rw [List.map_map, List.forall₂_map_right_iff, List.forall₂_same]
    intro x hx
    have hbk := hb x hx
    simp only [Function.comp]
    refine ⟨?_, ?_⟩
    · intro heq
      simp [heq, quantOne, dequantOne]
    · intro hmk
      by_cases hflag : quantOne n (-9999) ref (scaleExp n q) x = imaxOf n
      · refine Or.inl ⟨by simp [dequantOne, hflag], ?_⟩
        by_contra hc
        have hr : roundEven q < imaxOf n := by
          have a1 := roundEven_ge q
          have a2 : (roundEven q : ℚ) < imaxOf n := by rw [imaxQ]; linarith
          exact_mod_cast a2
        have := quantOne_lt n hn1 (-9999) ref q x hbk.2 hq0 hr hmk
        omega
      · refine Or.inr ?_
        unfold dequantOne
        rw [if_neg (by intro hc; exact hflag hc.1)]
        have key : |ref + (quantOne n (-9999) ref (scaleExp n q) x : ℚ) * 2 ^ (-(scaleExp n q)) - x| ≤
            R / (2 ^ n - 3 / 2) + 1 / 2 ^ 95 := by
          by_cases hsm : (imaxOf n : ℚ) / 2 ^ 126 < q
          · have e1 := quantOne_error n (-9999) ref x (scaleExp n q) hbk.1 hmk
            have e2 := half_step_le n hn1 q hsm
            have e3 : q / (2 ^ n - 3 / 2) ≤ R / (2 ^ n - 3 / 2) := div_le_div_of_nonneg_right hqR (by linarith)
            have e4 : (0 : ℚ) ≤ 1 / 2 ^ 95 := by positivity
            linarith
          · have hle : q ≤ (2 ^ n - 1 : ℚ) / 2 ^ 126 := by rw [← imaxQ]; exact not_lt.1 hsm
            obtain ⟨e1, e2⟩ := C06_negligible n hn2 q x ref (-9999) hle hbk.1 hbk.2 hmk
            rw [e2]
            simp only [Nat.cast_zero, zero_mul, add_zero]
            have e3 : q ≤ 1 / 2 ^ 95 := by
              refine le_trans hle ?_
              have e4 : (2 : ℚ) ^ n ≤ 2 ^ 31 := pow_le_pow_right₀ (by norm_num) hn2
              rw [div_le_div_iff₀ (by positivity) (by positivity)]
              norm_num at e4 ⊢
              linarith
            have e5 : 0 ≤ R / (2 ^ n - 3 / 2) := div_nonneg hR0 (by linarith)
            rw [abs_le]
            constructor <;> linarith
        have split : rv + (quantOne n (-9999) ref (scaleExp n q) x : ℚ) * 2 ^ (-(scaleExp n q)) - x =
            (ref + (quantOne n (-9999) ref (scaleExp n q) x : ℚ) * 2 ^ (-(scaleExp n q)) - x) + (rv - ref) := by ring
        rw [split]
        refine le_trans (abs_add_le _ _) ?_
        unfold tolerance
        linarith

/-- The masked point meets the specification. -/
theorem point_of {n : ℕ} {R δ : ℚ} {x : Option ℚ} {y : ℚ}
    (h : (counted x = -9999 → y = -9999) ∧
      (counted x ≠ -9999 → (y = -9999 ∧ (2 : ℚ) ^ n - 3 / 2 ≤ R) ∨ |y - counted x| ≤ tolerance n R δ)) :
    IsPoint n R δ x (if some y = some (-9999) then none else some y) := by
  have hm : IsMissing x ↔ counted x = -9999 := by
    unfold IsMissing counted
    cases x with
    | none => simp
    | some v => simp
  simp only [Option.some_inj]
  constructor
  · intro hx
    rw [if_pos (h.1 (hm.1 hx))]
  · intro v hv
    split at hv
    · cases hv
    · rename_i hy
      obtain rfl := Option.some.inj hv
      have hx : counted x ≠ -9999 := fun hc => hy (h.1 hc)
      rcases h.2 hx with h2 | h2
      · exact absurd h2.1 hy
      · exact h2
  · intro hv
    split at hv
    · rename_i hy
      by_cases hx : counted x = -9999
      · exact Or.inl (hm.2 hx)
      · rcases h.2 hx with h2 | h2
        · exact Or.inr (Or.inr h2.2)
        · right; left
          rw [hy, abs_sub_comm, sub_neg_eq_add] at h2
          exact h2
    · cases hv

end Gempak
