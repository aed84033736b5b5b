import Verif.Proof.GribValue

/-!
# Packing values that were read from a packed grid
-/

namespace Gempak.Grib
open Spec

/-- What is read for a value: packed with exponent `e` and unpacked. -/
def shown (n : ℕ) (missing ref : ℚ) (e : ℤ) (x : ℚ) : ℚ :=
  dequantOne n ref (2 ^ (-e)) (some missing) (quantOne n missing ref e x)

theorem shown_missing (n : ℕ) (missing ref : ℚ) (e : ℤ) : shown n missing ref e missing = missing := by
  simp [shown, quantOne, dequantOne]

theorem scaleExp_zero (n : ℕ) : scaleExp n 0 = 0 :=
  scaleExp_tiny n 0 (by push Not; positivity)

theorem shown_ref (n : ℕ) (hn1 : 1 ≤ n) (missing ref : ℚ) (e : ℤ) : shown n missing ref e ref = ref := by
  by_cases h : ref = missing
  · rw [h, shown_missing]
  · have hi := imaxOf_pos n hn1
    have h0 : roundEven (0 : ℚ) = 0 := by simpa using roundEven_int 0
    have hq : quantOne n missing ref e ref = 0 := by
      unfold quantOne
      rw [if_pos h, sub_self, max_self, zero_mul, h0]
      rfl
    unfold shown dequantOne
    rw [hq, if_neg (by omega)]
    simp

/-- Reading what was packed. -/
theorem pack_read (a : ℚ) (l : List ℚ) (missing : ℚ) (n : ℕ) (hn1 : 1 ≤ n) (hn2 : n ≤ 31)
    (hL : 2 ≤ wordCount n (a :: l).length) (ref scale : ℚ) (w : List Int)
    (h : packGrib (a :: l) missing n = .ok (ref, scale, w)) :
    ref = qMin a l ∧ readGrib w n (a :: l).length ref scale (some missing) =
      .ok (some ((a :: l).map (shown n missing ref (scaleExp n (qMax a l - qMin a l))))) := by
  obtain ⟨q, hq0, hb, hqe, hre, hcase⟩ := packGrib_ok a l missing n hn1 hn2 hL ref scale w h
  refine ⟨hre, ?_⟩
  rw [← hqe]
  rcases hcase with ⟨hq, hm, rfl, rfl⟩ | ⟨hne, rfl, rfl⟩
  · have hread := readGrib_packed n hn1 hn2 (List.replicate (a :: l).length 0)
      (by intro x hx; rw [List.eq_of_mem_replicate hx]; exact Nat.two_pow_pos _) (by simpa using hL) ref 1 (some missing)
    rw [packed_zeros, List.length_replicate] at hread
    rw [hread]
    congr 2
    apply List.ext_getElem
    · simp
    · intro i h1 h2
      have hi := imaxOf_pos n hn1
      have hbi := hb ((a :: l)[i]'(by simpa using h2)) (List.getElem_mem _)
      have hxi : (a :: l)[i]'(by simpa using h2) = ref := by linarith
      simp only [List.getElem_map, List.getElem_replicate, hxi, shown_ref n hn1, dequantOne]
      rw [if_neg (by omega)]
      simp
  · have hread := readGrib_packed n hn1 hn2 ((a :: l).map (quantOne n missing ref (scaleExp n q)))
      (by
        intro x hx
        obtain ⟨y, hy, rfl⟩ := List.mem_map.mp hx
        exact lt_of_le_of_lt (quantOne_le n hn1 _ _ _ _ (hb y hy).2 hq0) (imaxOf_lt n))
      (by simpa using hL) ref (2 ^ (-(scaleExp n q))) (some missing)
    rw [List.length_map, List.map_map] at hread
    exact hread

/-- A grid whose range rounds to a 31-bit integer is packed. -/
theorem packGrib_total (a : ℚ) (l : List ℚ) (missing : ℚ) (n : ℕ) (hn1 : 1 ≤ n) (hn2 : n ≤ 31)
    (hL : 2 ≤ wordCount n (a :: l).length) (hd : roundEven (qMax a l - qMin a l) ≤ 2147483647) :
    ∃ r, packGrib (a :: l) missing n = .ok r := by
  unfold packGrib
  rw [if_neg (by omega)]
  simp only [Int.toNat_natCast]
  rw [qRange_cons]
  simp only
  have hminmax : qMin a l ≤ qMax a l := le_trans (qMin_le a l a (by simp)) (le_qMax a l a (by simp))
  rw [if_neg (by
    rintro (h | h)
    · linarith
    · omega)]
  split_ifs
  · exact ⟨_, rfl⟩
  · have hbound : ∀ x ∈ (a :: l).map (quantOne n missing (qMin a l) (scaleExp n (qMax a l - qMin a l))), x < 2 ^ n := by
      intro x hx
      obtain ⟨y, hy, rfl⟩ := List.mem_map.mp hx
      refine lt_of_le_of_lt (quantOne_le n hn1 _ _ _ _ ?_ (by linarith)) (imaxOf_lt n)
      have := le_qMax a l y hy
      linarith
    rw [packWords_ok n hn1 hn2 _ hbound (by simpa using hL)]
    exact ⟨_, rfl⟩

/-- A range that scales to an integer below the flag is not scaled down further. -/
theorem le_scaleExp (n : ℕ) (hn1 : 1 ≤ n) (q : ℚ) (hq : (imaxOf n : ℚ) / 2 ^ 126 < q) (m : ℤ)
    (h : roundEven (q * 2 ^ m) < imaxOf n) : m ≤ scaleExp n q := by
  by_contra hlt
  have := (scaleExp_spec n hn1 q hq).2.1 m (by omega)
  omega

/-- Values that are whole numbers of steps above the reference are kept when the new steps are as fine. -/
theorem shown_steps (n : ℕ) (hn1 : 1 ≤ n) (missing ref q y : ℚ) (e : ℤ) (k : ℕ) (hy : y = ref + k * 2 ^ (-e)) (hle : y - ref ≤ q)
    (he : e ≤ scaleExp n q) : shown n missing ref (scaleExp n q) y = y := by
  by_cases hm : y = missing
  · rw [hm, shown_missing]
  · obtain ⟨j, hj⟩ : ∃ j : ℕ, scaleExp n q = e + j := ⟨(scaleExp n q - e).toNat, by omega⟩
    have h2 : (0 : ℚ) < 2 ^ (-e) := by positivity
    have hval : max (y - ref) 0 * 2 ^ scaleExp n q = ((k * 2 ^ j : ℕ) : ℤ) := by
      rw [max_eq_left (by rw [hy]; have : (0 : ℚ) ≤ k * 2 ^ (-e) := by positivity
                          linarith), hy, hj, zpow_add₀ (by norm_num), zpow_natCast]
      have : (2 : ℚ) ^ (-e) * 2 ^ e = 1 := by rw [← zpow_add₀ (by norm_num)]; simp
      push_cast
      calc (ref + k * 2 ^ (-e) - ref) * (2 ^ e * 2 ^ j) = k * 2 ^ j * ((2 : ℚ) ^ (-e) * 2 ^ e) := by ring
        _ = k * 2 ^ j := by rw [this, mul_one]
    have hquant : quantOne n missing ref (scaleExp n q) y = k * 2 ^ j := by
      unfold quantOne
      rw [if_pos hm, hval, roundEven_int]
      rfl
    have hlt : k * 2 ^ j < imaxOf n := by
      have h1 := scaled_lt n hn1 q
      have hq0 : 0 ≤ q := by
        have : (0 : ℚ) ≤ k * 2 ^ (-e) := by positivity
        rw [hy] at hle; linarith
      have h3 : max (y - ref) 0 * 2 ^ scaleExp n q ≤ q * 2 ^ scaleExp n q :=
        mul_le_mul_of_nonneg_right (max_le hle hq0) (by positivity)
      rw [hval] at h3
      have h4 : (((k * 2 ^ j : ℕ) : ℤ) : ℚ) < (imaxOf n : ℚ) := lt_of_le_of_lt h3 h1
      exact_mod_cast h4
    unfold shown dequantOne
    rw [hquant, if_neg (by omega), hy, hj]
    have : (2 : ℚ) ^ j * 2 ^ (-(e + (j : ℤ))) = 2 ^ (-e) := by
      rw [← zpow_natCast, ← zpow_add₀ (by norm_num)]
      congr 1; ring
    push_cast
    rw [mul_assoc, this]

/-- The range read back, when it is not nothing, is no negligible range. -/
theorem range_kept (n : ℕ) (hn1 : 1 ≤ n) (q : ℚ) (hq : (imaxOf n : ℚ) / 2 ^ 126 < q)
    (hK : 0 < roundEven (q * 2 ^ scaleExp n q)) :
    (imaxOf n : ℚ) / 2 ^ 126 < roundEven (q * 2 ^ scaleExp n q) * 2 ^ (-scaleExp n q) := by
  obtain ⟨h1, h2, h3⟩ := scaleExp_spec n hn1 q hq
  have hi := imaxOf_pos n hn1
  set e := scaleExp n q with he
  set K := roundEven (q * 2 ^ e) with hKd
  have hKge := roundEven_le (q * 2 ^ e)
  rw [← hKd] at hKge
  have hi0 : (0 : ℚ) < imaxOf n := by exact_mod_cast hi
  have he1 : e ≤ 125 := by
    by_contra hc
    have : (2 : ℚ) ^ (126 : ℕ) ≤ 2 ^ e := by
      rw [← zpow_natCast]; exact zpow_le_zpow_right₀ (by norm_num) (by push_cast; omega)
    rw [div_lt_iff₀ (by positivity)] at hq
    have hq0 : 0 < q := by
      by_contra hc; push Not at hc
      have : q * 2 ^ 126 ≤ 0 := mul_nonpos_of_nonpos_of_nonneg hc (by positivity)
      linarith
    have := mul_le_mul_of_nonneg_left this hq0.le
    linarith
  rw [div_lt_iff₀ (by positivity), mul_assoc, ← zpow_natCast, ← zpow_add₀ (by norm_num)]
  have hKpos : (1 : ℚ) ≤ K := by exact_mod_cast hK
  rcases eq_or_lt_of_le he1 with h125 | hlt
  · have e2 : (2 : ℚ) ^ (-e + ((126 : ℕ) : ℤ)) = 2 := by rw [h125]; norm_num
    rw [e2]
    have hq2 : (imaxOf n : ℚ) / 2 < q * 2 ^ e := by
      rw [div_lt_iff₀ (by positivity)] at hq
      rw [h125]
      have : (2 : ℚ) ^ (125 : ℤ) * 2 = 2 ^ 126 := by norm_num
      rw [div_lt_iff₀ (by norm_num), mul_assoc, this]
      exact hq
    have hlt2 : (imaxOf n : ℤ) < 2 * K + 1 := by
      have : (imaxOf n : ℚ) < 2 * K + 1 := by linarith
      exact_mod_cast this
    obtain ⟨n', rfl⟩ : ∃ n', n = n' + 1 := ⟨n - 1, by omega⟩
    have hodd : (imaxOf (n' + 1) : ℤ) % 2 = 1 := by
      unfold imaxOf
      rw [pow_succ]
      have := Nat.two_pow_pos n'
      omega
    have hfin : (imaxOf (n' + 1) : ℤ) < K * 2 := by omega
    exact_mod_cast hfin
  · have h4 : (4 : ℚ) ≤ 2 ^ (-e + ((126 : ℕ) : ℤ)) := by
      calc (4 : ℚ) = 2 ^ (2 : ℤ) := by norm_num
        _ ≤ _ := zpow_le_zpow_right₀ (by norm_num) (by push_cast; omega)
    have h5 := h2 (e + 1) (by omega)
    have h6 := roundEven_ge (q * 2 ^ (e + 1))
    have h7 : (imaxOf n : ℚ) ≤ roundEven (q * 2 ^ (e + 1)) := by exact_mod_cast h5
    rw [zpow_add₀ (by norm_num), zpow_one, ← mul_assoc] at h6
    rw [zpow_add₀ (by norm_num), zpow_one, ← mul_assoc] at h7
    have h8 : 2 * (imaxOf n : ℚ) ≤ 4 * K + 3 := by linarith
    have h9 : 2 * (imaxOf n : ℤ) ≤ 4 * K + 3 := by exact_mod_cast h8
    have h10 : (imaxOf n : ℤ) < K * 4 := by omega
    have h11 : (imaxOf n : ℚ) < K * 4 := by exact_mod_cast h10
    have h12 : (K : ℚ) * 4 ≤ K * 2 ^ (-e + ((126 : ℕ) : ℤ)) := mul_le_mul_of_nonneg_left h4 (by linarith)
    linarith

end Gempak.Grib
