import Verif.Props.Resave
import Verif.Props.GribFloat

/-!
# C109 with the rounding of floating point numbers

As C97: every operation is rounded, the reference is stored as a 32-bit float, and what is read are 64-bit floats.
-/

namespace Gempak.Grib
open Spec

/-- The range read back is well above the negligible ones and fills a quarter of the codes. -/
theorem range_margin (n : ℕ) (hn1 : 1 ≤ n) (q : ℚ) (hq : (imaxOf n : ℚ) / 2 ^ 126 < q)
    (hK : 0 < roundEven (q * 2 ^ scaleExp n q)) :
    (imaxOf n : ℚ) / 2 ^ 126 + 2 ^ (-scaleExp n q) / 4 ≤ roundEven (q * 2 ^ scaleExp n q) * 2 ^ (-scaleExp n q) ∧
      (imaxOf n : ℤ) < 4 * roundEven (q * 2 ^ scaleExp n q) := by
  obtain ⟨h1, h2, h3⟩ := scaleExp_spec n hn1 q hq
  have hi := imaxOf_pos n hn1
  set e := scaleExp n q with he
  set K := roundEven (q * 2 ^ e) with hKd
  have hKge := roundEven_le (q * 2 ^ e)
  rw [← hKd] at hKge
  have hi0 : (0 : ℚ) < imaxOf n := by exact_mod_cast hi
  have he1 : e ≤ 125 := by
    by_contra hc
    have : (2 : ℚ) ^ (126 : ℕ) ≤ 2 ^ e := by
      rw [← zpow_natCast]; exact zpow_le_zpow_right₀ (by norm_num) (by push_cast; omega)
    rw [div_lt_iff₀ (by positivity)] at hq
    have hq0 : 0 < q := by
      by_contra hc; push Not at hc
      have : q * 2 ^ 126 ≤ 0 := mul_nonpos_of_nonpos_of_nonneg hc (by positivity)
      linarith
    have := mul_le_mul_of_nonneg_left this hq0.le
    linarith
  have hs : (0 : ℚ) < 2 ^ (-e) := by positivity
  have h5 := h2 (e + 1) (by omega)
  have h6 := roundEven_ge (q * 2 ^ (e + 1))
  have h7 : (imaxOf n : ℚ) ≤ roundEven (q * 2 ^ (e + 1)) := by exact_mod_cast h5
  rw [zpow_add₀ (by norm_num), zpow_one, ← mul_assoc] at h6
  rw [zpow_add₀ (by norm_num), zpow_one, ← mul_assoc] at h7
  have h8 : 2 * (imaxOf n : ℚ) ≤ 4 * K + 3 := by linarith
  have h9 : 2 * (imaxOf n : ℤ) ≤ 4 * K + 3 := by exact_mod_cast h8
  have h10 : (imaxOf n : ℤ) + 1 ≤ 4 * K := by omega
  have h11 : (imaxOf n : ℚ) + 1 ≤ 4 * K := by exact_mod_cast h10
  refine ⟨?_, by omega⟩
  rcases eq_or_lt_of_le he1 with h125 | hlt
  · have hq2 : (imaxOf n : ℚ) / 2 < q * 2 ^ e := by
      rw [div_lt_iff₀ (by positivity)] at hq
      rw [h125]
      have : (2 : ℚ) ^ (125 : ℤ) * 2 = 2 ^ 126 := by norm_num
      rw [div_lt_iff₀ (by norm_num), mul_assoc, this]
      exact hq
    have hlt2 : (imaxOf n : ℤ) < 2 * K + 1 := by
      have : (imaxOf n : ℚ) < 2 * K + 1 := by linarith
      exact_mod_cast this
    obtain ⟨n', rfl⟩ : ∃ n', n = n' + 1 := ⟨n - 1, by omega⟩
    have hodd : (imaxOf (n' + 1) : ℤ) % 2 = 1 := by
      unfold imaxOf
      rw [pow_succ]
      have := Nat.two_pow_pos n'
      omega
    have hfin : (imaxOf (n' + 1) : ℤ) + 1 ≤ K * 2 := by omega
    have hfin' : (imaxOf (n' + 1) : ℚ) + 1 ≤ K * 2 := by exact_mod_cast hfin
    have e2 : (2 : ℚ) ^ (-e) = 2 / 2 ^ 126 := by rw [h125]; norm_num
    rw [e2]
    have : (0 : ℚ) < 1 / 2 ^ 126 := by positivity
    calc (imaxOf (n' + 1) : ℚ) / 2 ^ 126 + 2 / 2 ^ 126 / 4 = ((imaxOf (n' + 1) : ℚ) + 1 / 2) * (1 / 2 ^ 126) := by ring
      _ ≤ ((K : ℚ) * 2) * (1 / 2 ^ 126) := mul_le_mul_of_nonneg_right (by linarith) this.le
      _ = (K : ℚ) * (2 / 2 ^ 126) := by ring
  · have h4 : (4 : ℚ) / 2 ^ 126 ≤ 2 ^ (-e) := by
      calc (4 : ℚ) / 2 ^ 126 = 2 ^ (-124 : ℤ) := by norm_num
        _ ≤ _ := zpow_le_zpow_right₀ (by norm_num) (by omega)
    have h13 : (imaxOf n : ℚ) / 2 ^ 126 ≤ imaxOf n * 2 ^ (-e) / 4 := by
      have := mul_le_mul_of_nonneg_left h4 hi0.le
      calc (imaxOf n : ℚ) / 2 ^ 126 = imaxOf n * (4 / 2 ^ 126) / 4 := by ring
        _ ≤ _ := by linarith
    have h14 := mul_le_mul_of_nonneg_right h11 hs.le
    linarith

theorem rnd_float (p p' : ℕ) (hp : 1 ≤ p) (hpp : p ≤ p') (x : ℚ) : rnd p' (rnd p x) = rnd p x := by
  obtain ⟨m, k, hm, hx⟩ := rnd_form p x
  rw [hx]
  exact rnd_exact p' (by omega) m k (le_trans hm (pow_le_pow_right₀ (by norm_num) hpp))

/-- A floating point number at most `x` is at most the rounded `x`. -/
theorem float_le_rnd (p : ℕ) (hp : 1 ≤ p) (r x : ℚ) (hr : rnd p r = r) (h : r ≤ x) : r ≤ rnd p x := by
  obtain ⟨m, k, hm, hx⟩ := rnd_form p r
  have := rnd_nearest p hp x m k hm
  rw [← hx, hr] at this
  have h1 := neg_abs_le (rnd p x - x)
  rw [abs_of_nonpos (by linarith : r - x ≤ 0)] at this
  linarith

/-- Of what is read for code `k`, the rounded difference to the reference is `k` steps, to within a sixty-fourth of one. -/
theorem near_code (r : ℚ) (e : ℤ) (hr : |r| ≤ 2 ^ 45 * 2 ^ (-e)) (k : ℕ) (hk : k < 2 ^ 31) :
    |rnd 53 (rnd 53 (r + k * 2 ^ (-e)) - r) - k * 2 ^ (-e)| ≤ 2 ^ (-e) / 64 := by
  have hs : (0 : ℚ) < 2 ^ (-e) := by positivity
  generalize (2 : ℚ) ^ (-e) = s at *
  have hk' : (k : ℚ) < 2 ^ 31 := by exact_mod_cast hk
  have hk0 : (0 : ℚ) ≤ k := by positivity
  have hks : (k : ℚ) * s ≤ 2 ^ 31 * s := mul_le_mul_of_nonneg_right hk'.le hs.le
  have hks0 : (0 : ℚ) ≤ k * s := by positivity
  have h1 := rnd_error 53 (r + k * s)
  have h2 : |r + k * s| ≤ 2 ^ 46 * s := by
    rw [abs_le] at hr ⊢
    constructor
    · linarith [hr.1]
    · norm_num at hr hks ⊢
      linarith [hr.2]
  have h3 : |rnd 53 (r + k * s) - (r + k * s)| ≤ s / 128 := by
    refine le_trans h1 ?_
    rw [div_le_iff₀ (by positivity)]
    refine le_trans h2 ?_
    norm_num
    linarith
  generalize rnd 53 (r + k * s) = y at *
  have h4 := rnd_error 53 (y - r)
  have h5 : |y - r| ≤ 2 ^ 32 * s := by
    rw [abs_le] at h3 ⊢
    norm_num at hks ⊢
    constructor <;> linarith [h3.1, h3.2]
  have h6 : |rnd 53 (y - r) - (y - r)| ≤ s / 128 := by
    refine le_trans h4 ?_
    rw [div_le_iff₀ (by positivity)]
    refine le_trans h5 ?_
    norm_num
    linarith
  rw [abs_le] at *
  constructor <;> linarith [h3.1, h3.2, h6.1, h6.2]

/-- What is read for a value: packed with exponent `e` and unpacked. -/
def shownF (p n : ℕ) (missing ref : ℚ) (e : ℤ) (x : ℚ) : ℚ :=
  dequantF n (storedF ref) (2 ^ (-e)) (some missing) (quantF p n missing ref e x)

theorem shownF_missing (p n : ℕ) (missing ref : ℚ) (e : ℤ) : shownF p n missing ref e missing = missing := by
  simp [shownF, quantF, dequantF]

theorem shownF_ref (p n : ℕ) (hn1 : 1 ≤ n) (missing ref : ℚ) (e : ℤ) (hm : ref ≠ missing) :
    shownF p n missing ref e ref = storedF ref := by
  have hi := imaxOf_pos n hn1
  have h0 : roundEven (0 : ℚ) = 0 := by simpa using roundEven_int 0
  have hq : quantF p n missing ref e ref = 0 := by
    unfold quantF
    rw [if_pos hm, sub_self, rnd_zero, max_self, zero_mul, rnd_zero, h0]
    rfl
  unfold shownF dequantF
  rw [hq, if_neg (by omega), Nat.cast_zero, zero_mul, rnd_zero, add_zero]
  exact rnd_float 24 53 (by decide) (by decide) ref

theorem shownF_code (p n : ℕ) (hn2 : n ≤ 31) (missing ref : ℚ) (e : ℤ) (x : ℚ) (h : quantF p n missing ref e x < imaxOf n) :
    shownF p n missing ref e x = rnd 53 (storedF ref + (quantF p n missing ref e x : ℕ) * 2 ^ (-e)) := by
  unfold shownF dequantF
  rw [if_neg (by omega)]
  congr 2
  have hlt : quantF p n missing ref e x < 2 ^ 53 :=
    lt_trans h (lt_of_lt_of_le (imaxOf_lt n) (Nat.pow_le_pow_right (by decide) (by omega)))
  have := rnd_exact 53 (by decide) (quantF p n missing ref e x : ℤ) (-e)
    (by rw [abs_of_nonneg (by positivity)]; exact_mod_cast hlt.le)
  exact_mod_cast this

/-- Reading what was packed. -/
theorem pack_readF (p : ℕ) (hp : 1 ≤ p) (a : ℚ) (l : List ℚ) (missing : ℚ) (n : ℕ) (hn1 : 1 ≤ n) (hn2 : n ≤ 31)
    (hL : 2 ≤ wordCount n (a :: l).length) (ref scale : ℚ) (w : List Int)
    (h : packGribF p (a :: l) missing n = .ok (ref, scale, w)) :
    ref = qMin a l ∧ scale = 2 ^ (-scaleExp n (rnd p (qMax a l - qMin a l))) ∧
      readGribF w n (a :: l).length (storedF ref) (storedF scale) (some missing) =
      .ok (some ((a :: l).map (shownF p n missing ref (scaleExp n (rnd p (qMax a l - qMin a l)))))) := by
  obtain ⟨q, hq0, hb, hqe, hre, hcase⟩ := packGribF_ok p hp a l missing n hn1 hn2 hL ref scale w h
  refine ⟨hre, ?_⟩
  rw [← hqe]
  rcases hcase with ⟨hq, hm, rfl, rfl⟩ | ⟨rfl, rfl⟩
  · have hread := readGribF_packed n hn1 hn2 (List.replicate (a :: l).length 0)
      (by intro x hx; rw [List.eq_of_mem_replicate hx]; exact Nat.two_pow_pos _) (by simpa using hL) (storedF ref) (storedF 1)
      (some missing)
    rw [packed_zeros, List.length_replicate] at hread
    refine ⟨by rw [hq, scaleExp_zero]; norm_num, ?_⟩
    rw [hread]
    congr 2
    apply List.ext_getElem
    · simp
    · intro i h1 h2
      have hi := imaxOf_pos n hn1
      have hmi : (a :: l)[i]'(by simpa using h2) ∈ a :: l := List.getElem_mem _
      have hbi := hb _ hmi
      have hz : (a :: l)[i]'(by simpa using h2) - ref = 0 :=
        rnd_eq_zero p hp (le_antisymm (by linarith [hbi.2]) (rnd_nonneg p (by linarith [hbi.1])))
      have hxi : (a :: l)[i]'(by simpa using h2) = ref := by linarith
      have hrm : ref ≠ missing := by
        rintro rfl
        exact hm (hxi ▸ hmi)
      simp only [List.getElem_map, List.getElem_replicate, hxi, shownF_ref p n hn1 missing ref _ hrm, dequantF]
      rw [if_neg (by omega), Nat.cast_zero, zero_mul, rnd_zero, add_zero]
      exact rnd_float 24 53 (by decide) (by decide) ref
  · have hread := readGribF_packed n hn1 hn2 ((a :: l).map (quantF p n missing ref (scaleExp n q)))
      (by
        intro x hx
        obtain ⟨y, hy, rfl⟩ := List.mem_map.mp hx
        exact lt_of_le_of_lt (quantF_le p hp n hn1 _ _ _ _ (hb y hy).1 (hb y hy).2) (imaxOf_lt n))
      (by simpa using hL) (storedF ref) (storedF (2 ^ (-(scaleExp n q)))) (some missing)
    rw [List.length_map, List.map_map, storedF_zpow] at hread
    refine ⟨rfl, ?_⟩
    rw [storedF_zpow]
    exact hread

/-- What is packed of a grid whose differences are not too large. -/
theorem packGribF_total (a : ℚ) (l : List ℚ) (missing : ℚ) (n : ℕ) (hn1 : 1 ≤ n) (hn2 : n ≤ 31) (hL : 32 < n * (a :: l).length)
    (hd : ∀ x ∈ a :: l, ∀ y ∈ a :: l, roundEven (rnd 53 (x - y)) ≤ 2147483647) : ∃ r, packGribF 53 (a :: l) missing n = .ok r :=
  C97_packs 53 (by decide) _ missing n hn1 hn2 hL hd

/-- The code of what is read is the code times a power of two, and it is read as before. -/
theorem shownF_again (n : ℕ) (hn1 : 1 ≤ n) (hn2 : n ≤ 31) (missing r q' : ℚ) (e : ℤ) (hr24 : storedF r = r)
    (hr : |r| ≤ 2 ^ 45 * 2 ^ (-e)) (k K : ℕ) (hk : k < imaxOf n) (hK1 : 1 ≤ K) (hKi : K < imaxOf n) (hK4 : imaxOf n < 4 * K)
    (y : ℚ) (hy : y = rnd 53 (r + k * 2 ^ (-e))) (hle : rnd 53 (y - r) ≤ q')
    (hKq : rnd 53 (rnd 53 (r + K * 2 ^ (-e)) - r) ≤ q') (he : e ≤ scaleExp n q') :
    shownF 53 n missing r (scaleExp n q') y = y := by
  by_cases hm : y = missing
  · rw [hm, shownF_missing]
  have hi31 : imaxOf n < 2 ^ 31 := lt_of_lt_of_le (imaxOf_lt n) (Nat.pow_le_pow_right (by decide) hn2)
  have hs : (0 : ℚ) < 2 ^ (-e) := by positivity
  have h2e : (2 : ℚ) ^ (-e) * 2 ^ e = 1 := by rw [← zpow_add₀ (by norm_num)]; simp
  obtain ⟨j, hj⟩ : ∃ j : ℕ, scaleExp n q' = e + j := ⟨(scaleExp n q' - e).toNat, by omega⟩
  have hpow : (2 : ℚ) ^ scaleExp n q' = 2 ^ e * 2 ^ j := by rw [hj, zpow_add₀ (by norm_num), zpow_natCast]
  have hp0 : (0 : ℚ) < 2 ^ scaleExp n q' := by positivity
  have hj0 : (0 : ℚ) < 2 ^ j := by positivity
  have hlt := scaled_lt n hn1 q'
  have nk := near_code r e hr k (lt_trans hk hi31)
  have nK := near_code r e hr K (lt_trans hKi hi31)
  rw [← hy] at nk
  -- in units of the first steps
  have unit : ∀ (d : ℚ) (c : ℕ), |d - c * 2 ^ (-e)| ≤ 2 ^ (-e) / 64 → |d * 2 ^ scaleExp n q' - c * 2 ^ j| ≤ 2 ^ j / 64 := by
    intro d c hd
    have h1 : d * 2 ^ scaleExp n q' - c * 2 ^ j = (d - c * 2 ^ (-e)) * (2 ^ e * 2 ^ j) := by
      rw [hpow]
      calc d * (2 ^ e * 2 ^ j) - c * 2 ^ j = d * (2 ^ e * 2 ^ j) - c * (2 ^ (-e) * 2 ^ e) * 2 ^ j := by rw [h2e, mul_one]
        _ = _ := by ring
    rw [h1, abs_mul, abs_of_pos (by positivity : (0 : ℚ) < 2 ^ e * 2 ^ j)]
    calc |d - c * 2 ^ (-e)| * (2 ^ e * 2 ^ j) ≤ 2 ^ (-e) / 64 * (2 ^ e * 2 ^ j) :=
          mul_le_mul_of_nonneg_right hd (by positivity)
      _ = (2 ^ (-e) * 2 ^ e) * 2 ^ j / 64 := by ring
      _ = _ := by rw [h2e, one_mul]
  have uk := unit _ _ nk
  have uK := unit _ _ nK
  have hK' : rnd 53 (rnd 53 (r + K * 2 ^ (-e)) - r) * 2 ^ scaleExp n q' < imaxOf n :=
    lt_of_le_of_lt (mul_le_mul_of_nonneg_right hKq hp0.le) hlt
  have hk' : rnd 53 (y - r) * 2 ^ scaleExp n q' < imaxOf n :=
    lt_of_le_of_lt (mul_le_mul_of_nonneg_right hle hp0.le) hlt
  have hjsmall : j ≤ 2 := by
    by_contra hc
    have h8 : (8 : ℚ) ≤ 2 ^ j := by
      calc (8 : ℚ) = 2 ^ 3 := by norm_num
        _ ≤ _ := pow_le_pow_right₀ (by norm_num) (by omega)
    have h4 : (imaxOf n : ℚ) < 4 * K := by exact_mod_cast hK4
    have hK1' : (1 : ℚ) ≤ K := by exact_mod_cast hK1
    rw [abs_le] at uK
    have h5 : (K : ℚ) * 2 ^ j - 2 ^ j / 64 < 4 * K := by linarith [uK.1]
    have h6 : ((K : ℚ) - 1 / 64) * 8 ≤ (K - 1 / 64) * 2 ^ j := mul_le_mul_of_nonneg_left h8 (by linarith)
    have h7 : ((K : ℚ) - 1 / 64) * 2 ^ j = K * 2 ^ j - 2 ^ j / 64 := by ring
    linarith
  have hj4 : (2 : ℚ) ^ j ≤ 4 := by
    calc (2 : ℚ) ^ j ≤ 2 ^ 2 := pow_le_pow_right₀ (by norm_num) hjsmall
      _ = 4 := by norm_num
  rw [abs_le] at uk
  have hround : roundEven (rnd 53 (y - r) * 2 ^ scaleExp n q') = ((k * 2 ^ j : ℕ) : ℤ) := by
    apply roundEven_at
    · push_cast; linarith [uk.1]
    · push_cast; linarith [uk.2]
  have hry : r ≤ y := by
    rw [hy]
    have : (0 : ℚ) ≤ k * 2 ^ (-e) := by positivity
    refine float_le_rnd 53 (by decide) r _ ?_ (by linarith)
    rw [← hr24]
    exact rnd_float 24 53 (by decide) (by decide) r
  have hquant : quantF 53 n missing r (scaleExp n q') y = k * 2 ^ j := by
    rw [quantF_eq 53 (by decide) n missing r _ y hry hm, hround]
    rfl
  have hklt : k * 2 ^ j < imaxOf n := by
    have h1 : ((k * 2 ^ j : ℕ) : ℚ) < (imaxOf n + 1 : ℕ) := by
      push_cast; linarith [uk.1]
    have h2 : k * 2 ^ j < imaxOf n + 1 := by exact_mod_cast h1
    rcases Nat.lt_or_eq_of_le (Nat.lt_succ_iff.mp h2) with h3 | h3
    · exact h3
    · exfalso
      rcases j with _ | j
      · rw [pow_zero, mul_one] at h3; omega
      · obtain ⟨n', rfl⟩ : ∃ n', n = n' + 1 := ⟨n - 1, by omega⟩
        have h4 : imaxOf (n' + 1) % 2 = 1 := by
          unfold imaxOf
          rw [pow_succ]
          have := Nat.two_pow_pos n'
          omega
        rw [pow_succ, ← mul_assoc] at h3
        omega
  rw [shownF_code 53 n hn2 missing r _ y (by rw [hquant]; exact hklt), hquant, hr24]
  have : (2 : ℚ) ^ j * 2 ^ (-(e + (j : ℤ))) = 2 ^ (-e) := by
    rw [← zpow_natCast, ← zpow_add₀ (by norm_num)]
    congr 1; ring
  rw [hj]
  push_cast
  rw [mul_assoc, this, ← hy]

/-- **C109 (partial, with rounding).** A grid is saved, with the reference stored as a 32-bit float, and read as 64-bit floats.
No value was lost to the missing flag; the value that stands for missing is a 32-bit float, not above any value if a point is
missing; the reference is at most `2^45` steps.  Then what was read is packed again and the copy reads as exactly the same
values. -/
theorem C109_float_partial (p : ℕ) (hp : 1 ≤ p) (grid : List ℚ) (missing : ℚ) (n : ℕ) (hn1 : 1 ≤ n) (hn2 : n ≤ 31)
    (hL : 32 < n * grid.length) (ref scale : ℚ) (w : List Int) (out : List ℚ)
    (h : packGribF p grid missing n = .ok (ref, scale, w))
    (hread : readGribF w n grid.length (storedF ref) (storedF scale) (some missing) = .ok (some out))
    (hkeep : ∀ k : ℕ, out[k]? = some missing → grid[k]? = some missing)
    (hm24 : storedF missing = missing) (hlow : missing ∈ grid → ∀ x ∈ grid, missing ≤ x)
    (hmag : |storedF ref| ≤ 2 ^ 45 * scale)
    (hrange : ∀ x ∈ out, ∀ y ∈ out, roundEven (rnd 53 (x - y)) ≤ 2147483647) :
    ∃ ref2 scale2 w2, packGribF 53 out missing n = .ok (ref2, scale2, w2) ∧
      readGribF w2 n out.length (storedF ref2) (storedF scale2) (some missing) = .ok (some out) := by
  have hL' : 2 ≤ wordCount n grid.length := by unfold wordCount; omega
  obtain ⟨a, l, rfl⟩ : ∃ a l, grid = a :: l := by
    cases grid with
    | nil => simp at hL
    | cons a l => exact ⟨a, l, rfl⟩
  obtain ⟨hre, hse, hr⟩ := pack_readF p hp a l missing n hn1 hn2 hL' ref scale w h
  rw [hr] at hread
  simp only [Except.ok.injEq, Option.some.injEq] at hread
  obtain ⟨q, hq⟩ : ∃ q, q = rnd p (qMax a l - qMin a l) := ⟨_, rfl⟩
  obtain ⟨e, he⟩ : ∃ e, e = scaleExp n q := ⟨_, rfl⟩
  rw [← hq, ← he] at hread hse
  have hi := imaxOf_pos n hn1
  have hi31 : imaxOf n < 2 ^ 31 := lt_of_lt_of_le (imaxOf_lt n) (Nat.pow_le_pow_right (by decide) hn2)
  obtain ⟨r, hrd⟩ : ∃ r, r = storedF ref := ⟨_, rfl⟩
  have hr24 : storedF r = r := by rw [hrd]; exact rnd_float 24 24 (by decide) (by decide) ref
  have hr53 : rnd 53 r = r := by rw [hrd]; exact rnd_float 24 53 (by decide) (by decide) ref
  rw [← hrd, hse] at hmag
  set f := shownF p n missing ref e with hf
  have hkeep' : ∀ x ∈ a :: l, f x = missing → x = missing := by
    intro x hx hm
    obtain ⟨k, hk, rfl⟩ := List.getElem_of_mem hx
    have := hkeep k (by rw [← hread, List.getElem?_map, List.getElem?_eq_getElem hk]; simp [hm])
    rw [List.getElem?_eq_getElem hk] at this
    exact Option.some.inj this
  have hout : out = f a :: l.map f := by rw [← hread, List.map_cons]
  have hrefm : ref ∈ a :: l := hre ▸ qMin_mem a l
  have hle : ∀ x ∈ a :: l, ref ≤ x := fun x hx => hre ▸ qMin_le a l x hx
  have hq0 : 0 ≤ q := by
    rw [hq]; exact rnd_nonneg p (by linarith [qMin_le a l a (by simp), le_qMax a l a (by simp)])
  have hxq : ∀ x ∈ a :: l, rnd p (x - ref) ≤ q := by
    intro x hx
    have h2 := le_qMax a l x hx
    rw [hq, ← hre]
    exact rnd_mono p hp (by linarith [hle x hx]) (by linarith)
  -- missing points are at the reference
  have hmr : missing ∈ a :: l → r = missing := by
    intro hm
    rw [hrd, show ref = missing from le_antisymm (hle _ hm) (hlow hm _ hrefm), hm24]
  have hcle : ∀ x ∈ a :: l, quantF p n missing ref e x ≤ imaxOf n := fun x hx => by
    rw [he]; exact quantF_le p hp n hn1 missing ref q x (hle x hx) (hxq x hx)
  have hclt : ∀ x ∈ a :: l, x ≠ missing → quantF p n missing ref e x < imaxOf n := by
    intro x hx hm
    refine lt_of_le_of_ne (hcle x hx) fun hc => hm (hkeep' x hx ?_)
    simp [hf, shownF, dequantF, hc]
  have hfc : ∀ x ∈ a :: l, x ≠ missing → f x = rnd 53 (r + (quantF p n missing ref e x : ℕ) * 2 ^ (-e)) := by
    intro x hx hm
    rw [hf, shownF_code p n hn2 missing ref e x (hclt x hx hm), hrd]
  have hfle : ∀ x ∈ a :: l, r ≤ f x := by
    intro x hx
    by_cases hm : x = missing
    · rw [hf, hm, shownF_missing, hmr (hm ▸ hx)]
    · rw [hfc x hx hm]
      refine float_le_rnd 53 (by decide) r _ hr53 ?_
      have : (0 : ℚ) ≤ (quantF p n missing ref e x : ℕ) * 2 ^ (-e) := by positivity
      linarith
  have hfref : f ref = r := by
    by_cases hm : ref = missing
    · rw [hf, hm, shownF_missing, hmr (hm ▸ hrefm)]
    · rw [hf, shownF_ref p n hn1 missing ref e hm, hrd]
  have hmem : ∀ y, y ∈ f a :: l.map f → ∃ x ∈ a :: l, f x = y := by
    intro y hy
    rw [← List.map_cons] at hy
    exact List.mem_map.mp hy
  have hmap : ∀ x ∈ a :: l, f x ∈ f a :: l.map f := fun x hx => by
    rw [← List.map_cons]; exact List.mem_map_of_mem hx
  have hmin : qMin (f a) (l.map f) = r := by
    apply le_antisymm
    · have := qMin_le (f a) (l.map f) (f ref) (hmap ref hrefm)
      rwa [hfref] at this
    · obtain ⟨x, hx, hxe⟩ := hmem _ (qMin_mem (f a) (l.map f))
      rw [← hxe]; exact hfle x hx
  have hLo : 32 < n * (f a :: l.map f).length := by
    have : (f a :: l.map f).length = (a :: l).length := by simp
    rw [this]; exact hL
  have hLo' : 2 ≤ wordCount n (f a :: l.map f).length := by unfold wordCount; omega
  obtain ⟨⟨ref2, scale2, w2⟩, h2⟩ := packGribF_total (f a) (l.map f) missing n hn1 hn2 hLo (by rw [hout] at hrange; exact hrange)
  obtain ⟨hre2, _, hr2⟩ := pack_readF 53 (by decide) (f a) (l.map f) missing n hn1 hn2 hLo' ref2 scale2 w2 h2
  rw [hout]
  refine ⟨ref2, scale2, w2, h2, ?_⟩
  rw [hr2]
  congr 2
  rw [hmin] at hre2 ⊢
  rw [hre2]
  set q' := rnd 53 (qMax (f a) (l.map f) - r) with hq'
  have hdq : ∀ x ∈ a :: l, rnd 53 (f x - r) ≤ q' := by
    intro x hx
    have := le_qMax (f a) (l.map f) (f x) (hmap x hx)
    rw [hq']
    exact rnd_mono 53 (by decide) (by linarith [hfle x hx]) (by linarith)
  rw [← List.map_cons, List.map_map]
  apply List.map_congr_left
  intro x hx
  show shownF 53 n missing r (scaleExp n q') (f x) = f x
  by_cases hm : x = missing
  · rw [hm, hf, shownF_missing, shownF_missing]
  have atref : f x = r → shownF 53 n missing r (scaleExp n q') (f x) = f x := by
    intro hx0
    have hne : r ≠ missing := fun hc => hm (hkeep' x hx (hx0.trans hc))
    rw [hx0, shownF_ref 53 n hn1 missing r _ hne, hr24]
  have hcode : ∀ x ∈ a :: l, x ≠ missing → (quantF p n missing ref e x : ℤ) = roundEven (rnd p (x - ref) * 2 ^ e) := by
    intro x hx hm
    rw [quantF_eq p hp n missing ref e x (hle x hx) hm]
    have := rnd_nonneg p (x := x - ref) (by linarith [hle x hx])
    exact Int.toNat_of_nonneg (roundEven_nonneg _ (by positivity))
  have zero : quantF p n missing ref e x = 0 → f x = r := by
    intro h0
    rw [hfc x hx hm, h0, Nat.cast_zero, zero_mul, add_zero, hr53]
  by_cases hthr : (imaxOf n : ℚ) / 2 ^ 126 < q
  · -- the largest value
    have hmax := qMax_mem a l
    have hMm : qMax a l ≠ missing := by
      intro hc
      have h1 := hlow (hc ▸ hmax) x hx
      have h3 := le_qMax a l x hx
      exact hm (le_antisymm (hc ▸ h3) h1)
    obtain ⟨K, hK⟩ : ∃ K, K = quantF p n missing ref e (qMax a l) := ⟨_, rfl⟩
    have hKc : (K : ℤ) = roundEven (q * 2 ^ e) := by
      rw [hK, hcode _ hmax hMm, hq, hre]
    have hKi : K < imaxOf n := hK ▸ hclt _ hmax hMm
    have hxK : quantF p n missing ref e x ≤ K := by
      have h1 := hcode x hx hm
      have h3 : roundEven (rnd p (x - ref) * 2 ^ e) ≤ roundEven (q * 2 ^ e) :=
        roundEven_mono (mul_le_mul_of_nonneg_right (hxq x hx) (by positivity))
      omega
    rcases Nat.eq_zero_or_pos K with hz | hpos
    · exact atref (zero (by omega))
    · obtain ⟨hm1, hm2⟩ := range_margin n hn1 q hthr (by rw [← he, ← hKc]; exact_mod_cast hpos)
      rw [← he, ← hKc] at hm1 hm2
      have hKq : rnd 53 (rnd 53 (r + K * 2 ^ (-e)) - r) ≤ q' := by
        have := hdq _ hmax
        rwa [hfc _ hmax hMm, ← hK] at this
      have hs : (0 : ℚ) < 2 ^ (-e) := by positivity
      have nK := near_code r e hmag K (lt_trans hKi hi31)
      have hthr' : (imaxOf n : ℚ) / 2 ^ 126 < q' := by
        rw [abs_le] at nK
        push_cast at hm1
        linarith [nK.1]
      have hge : e ≤ scaleExp n q' := by
        refine le_scaleExp n hn1 q' hthr' e ?_
        obtain ⟨z, hz, hze⟩ := hmem _ (qMax_mem (f a) (l.map f))
        by_cases hzm : z = missing
        · exfalso
          have h1 : q' = 0 := by
            rw [hq', ← hze, hf, hzm, shownF_missing, ← hmr (hzm ▸ hz), sub_self, rnd_zero]
          have : (0 : ℚ) ≤ (imaxOf n : ℚ) / 2 ^ 126 := by positivity
          linarith
        · have hzc := hclt z hz hzm
          have nz := near_code r e hmag _ (lt_trans hzc hi31)
          rw [← hfc z hz hzm, hze, ← hq'] at nz
          have h2e : (2 : ℚ) ^ (-e) * 2 ^ e = 1 := by rw [← zpow_add₀ (by norm_num)]; simp
          have hpe : (0 : ℚ) < 2 ^ e := by positivity
          have h3 : |q' * 2 ^ e - (quantF p n missing ref e z : ℕ)| ≤ 1 / 64 := by
            have h4 : q' * 2 ^ e - (quantF p n missing ref e z : ℕ) = (q' - (quantF p n missing ref e z : ℕ) * 2 ^ (-e)) * 2 ^ e := by
              rw [sub_mul, mul_assoc, h2e, mul_one]
            rw [h4, abs_mul, abs_of_pos hpe]
            calc _ ≤ 2 ^ (-e) / 64 * 2 ^ e := mul_le_mul_of_nonneg_right nz hpe.le
              _ = 2 ^ (-e) * 2 ^ e / 64 := by ring
              _ = 1 / 64 := by rw [h2e]
          rw [abs_le] at h3
          rw [roundEven_at _ (quantF p n missing ref e z : ℕ) (by push_cast; linarith [h3.1]) (by push_cast; linarith [h3.2])]
          exact_mod_cast hzc
      exact shownF_again n hn1 hn2 missing r q' e hr24 hmag _ K (hclt x hx hm) hpos hKi (by omega) (f x) (hfc x hx hm)
        (hdq x hx) hKq hge
  · have he0 : e = 0 := by rw [he]; exact scaleExp_tiny n q hthr
    have hsmall : q < 1 / 2 := by
      refine lt_of_le_of_lt (not_lt.mp hthr) ?_
      have : (imaxOf n : ℚ) < 2 ^ 31 := by exact_mod_cast hi31
      rw [div_lt_iff₀ (by positivity)]
      norm_num at this ⊢
      linarith
    have h1 := hcode x hx hm
    rw [he0, zpow_zero, mul_one] at h1
    have h3 := roundEven_ge (rnd p (x - ref))
    have h4 : (roundEven (rnd p (x - ref)) : ℚ) < 1 := by linarith [hxq x hx]
    have h5 : roundEven (rnd p (x - ref)) < 1 := by exact_mod_cast h4
    exact atref (zero (by rw [he0]; omega))

/-- A grid with a missing point, whose value 1/32 is read as 0, that meets the hypotheses of `C109_float_partial`. -/
example : ∃ (ref scale : ℚ) (w : List Int) (out : List ℚ),
    packGribF 53 [1 / 32, 3, -1, 2, 7] (-1) (8 : ℕ) = .ok (ref, scale, w) ∧
      readGribF w 8 5 (storedF ref) (storedF scale) (some (-1)) = .ok (some out) ∧ out = [0, 3, -1, 2, 7] ∧
      (∀ k : ℕ, out[k]? = some (-1) → ([1 / 32, 3, -1, 2, 7] : List ℚ)[k]? = some (-1)) ∧
      storedF (-1) = -1 ∧ |storedF ref| ≤ 2 ^ 45 * scale ∧
      (∀ x ∈ out, ∀ y ∈ out, roundEven (rnd 53 (x - y)) ≤ 2147483647) := by
  have rint : ∀ z : ℤ, |z| ≤ 2 ^ 53 → rnd 53 (z : ℚ) = z := by
    intro z hz
    have := rnd_exact 53 (by decide) z 0 hz
    rwa [zpow_zero, mul_one] at this
  have hst : storedF (-1) = -1 := by
    have := rnd_exact 24 (by decide) (-1) 0 (by norm_num)
    simpa [storedF] using this
  have hmin : qMin (1 / 32) [3, -1, 2, 7] = -1 := by norm_num [qMin]
  have hmax : qMax (1 / 32) [3, -1, 2, 7] = 7 := by norm_num [qMax]
  have hd : rnd 53 (7 - -1 : ℚ) = 8 := by
    have := rint 8 (by norm_num)
    rw [show (7 - -1 : ℚ) = ((8 : ℤ) : ℚ) by norm_num, this]; norm_num
  have hdiff : ∀ g : List ℚ, (∀ x ∈ g, -1 ≤ x ∧ x ≤ 7) → ∀ x ∈ g, ∀ y ∈ g, roundEven (rnd 53 (x - y)) ≤ 2147483647 := by
    intro g hg x hx y hy
    have h1 := hg x hx
    have h2 := hg y hy
    refine le_trans (roundEven_le_of_lt _ 16 ?_) (by norm_num)
    have h3 := rnd_error 53 (x - y)
    have h4 : |x - y| ≤ 8 := by rw [abs_le]; constructor <;> linarith
    have h5 : |x - y| / 2 ^ 53 ≤ 8 := le_trans (div_le_self (abs_nonneg _) (by norm_num)) h4
    rw [abs_le] at h3 h4
    push_cast
    linarith [h3.2, h4.2]
  have hin : ∀ x ∈ ([1 / 32, 3, -1, 2, 7] : List ℚ), -1 ≤ x ∧ x ≤ 7 := by
    intro x hx
    simp at hx
    rcases hx with rfl | rfl | rfl | rfl | rfl <;> norm_num
  have hin' : ∀ x ∈ ([0, 3, -1, 2, 7] : List ℚ), -1 ≤ x ∧ x ≤ 7 := by
    intro x hx
    simp at hx
    rcases hx with rfl | rfl | rfl | rfl | rfl <;> norm_num
  obtain ⟨⟨ref, scale, w⟩, h⟩ := packGribF_total (1 / 32) [3, -1, 2, 7] (-1) 8 (by decide) (by decide) (by decide) (hdiff _ hin)
  obtain ⟨hre, hse, hr⟩ := pack_readF 53 (by decide) _ _ _ 8 (by decide) (by decide) (by decide) ref scale w h
  have hi : imaxOf 8 = 255 := by decide
  have hex : scaleExp 8 8 = 4 := by
    have h8 : roundEven (8 : ℚ) = 8 := by exact_mod_cast roundEven_int 8
    have up : ∀ z : ℕ, roundEven ((8 : ℚ) * 2 ^ z) = 8 * 2 ^ z := by
      intro z
      exact_mod_cast roundEven_int (8 * 2 ^ z)
    unfold scaleExp
    simp only [hi]
    rw [dif_pos (by norm_num), dif_neg (by rw [h8]; norm_num)]
    unfold upLoop
    rw [dif_pos (by rw [up]; norm_num)]
    unfold upLoop
    rw [dif_pos (by rw [up]; norm_num)]
    unfold upLoop
    rw [dif_pos (by rw [up]; norm_num)]
    unfold upLoop
    rw [dif_pos (by rw [up]; norm_num)]
    unfold upLoop
    rw [dif_neg (by rw [up]; norm_num)]
    rfl
  rw [hmin] at hre
  subst hre
  rw [hmin, hmax, hd, hex] at hr hse
  -- a value whose code is `16 + 16 z` reads as `z`
  have val : ∀ (x : ℚ) (z : ℕ), z ≤ 7 → -1 ≤ x → x ≠ -1 → rnd 53 (x - -1) = x + 1 → roundEven ((x + 1) * 2 ^ (4 : ℤ)) = 16 + 16 * z →
      shownF 53 8 (-1) (-1) 4 x = z := by
    intro x z hz h1 h2 h3 h4
    have hq : quantF 53 8 (-1) (-1) 4 x = 16 + 16 * z := by
      rw [quantF_eq 53 (by decide) 8 (-1) (-1) 4 x h1 h2, h3, h4]
      omega
    rw [shownF_code 53 8 (by decide) (-1) (-1) 4 x (by rw [hq, hi]; omega), hq, hst]
    have : (-1 : ℚ) + ((16 + 16 * z : ℕ) : ℚ) * 2 ^ (-4 : ℤ) = ((z : ℤ) : ℚ) := by
      push_cast; norm_num; ring
    rw [this, rint z (by rw [abs_of_nonneg (by positivity)]; norm_num; omega)]
    rfl
  have isint : ∀ z : ℕ, z ≤ 7 → shownF 53 8 (-1) (-1) 4 (z : ℚ) = z := by
    intro z hz
    have hz0 : (0 : ℚ) ≤ z := by positivity
    refine val z z hz (by linarith) (by intro h; linarith) ?_ ?_
    · have := rint (z + 1) (by rw [abs_of_nonneg (by positivity)]; norm_num; omega)
      push_cast at this
      rw [sub_neg_eq_add]; exact this
    · have := roundEven_int (16 + 16 * z)
      rw [← this]
      congr 1
      push_cast; norm_num; ring
  have s0 : shownF 53 8 (-1) (-1) 4 (1 / 32) = 0 := by
    have := val (1 / 32) 0 (by norm_num) (by norm_num) (by norm_num) (by
      have := rnd_exact 53 (by decide) 33 (-5) (by norm_num)
      rw [show (1 / 32 - -1 : ℚ) = ((33 : ℤ) : ℚ) * 2 ^ (-5 : ℤ) by norm_num, this]; norm_num) (by
      have hf : ⌊((1 / 32 + 1) * 2 ^ (4 : ℤ) : ℚ)⌋ = 16 := by rw [Int.floor_eq_iff]; norm_num
      unfold roundEven
      rw [hf]; norm_num)
    simpa using this
  have s3 : shownF 53 8 (-1) (-1) 4 3 = 3 := by simpa using isint 3 (by norm_num)
  have s2 : shownF 53 8 (-1) (-1) 4 2 = 2 := by simpa using isint 2 (by norm_num)
  have s7 : shownF 53 8 (-1) (-1) 4 7 = 7 := by simpa using isint 7 (by norm_num)
  simp only [List.map_cons, List.map_nil, s0, s3, s2, s7, shownF_missing] at hr
  refine ⟨-1, scale, w, _, h, hr, rfl, ?_, hst, ?_, hdiff _ hin'⟩
  · intro k hk
    rcases k with _ | _ | _ | _ | _ | k <;> first | rfl | (norm_num at hk; done) | (simp at hk)
  · rw [hst, hse]; norm_num

end Gempak.Grib
