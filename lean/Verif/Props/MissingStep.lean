import Verif.Props.Resave

/-!
# C110: missing points and the precision of the others

In exact arithmetic, as in C04 to C07.
-/

namespace Gempak.Grib
open Spec

/-- **C110 (deviation, for all grids).** The steps of a grid with a missing point reach from its values to the value that
stands for missing: none is shorter than that distance divided by `2^n - 1`. -/
theorem C110_coarse (grid : List ℚ) (missing : ℚ) (n : ℕ) (hn1 : 1 ≤ n) (hn2 : n ≤ 31) (hL : 32 < n * grid.length)
    (hm : missing ∈ grid) (ref scale : ℚ) (w : List Int) (h : packGrib grid missing n = .ok (ref, scale, w)) :
    ∀ x ∈ grid, |x - missing| / (2 ^ n - 1) < scale := by
  have hL' : 2 ≤ wordCount n grid.length := by unfold wordCount; omega
  obtain ⟨a, l, rfl⟩ : ∃ a l, grid = a :: l := by
    cases grid with
    | nil => simp at hL
    | cons a l => exact ⟨a, l, rfl⟩
  obtain ⟨q, hq0, hb, hqe, hre, hcase⟩ := packGrib_ok a l missing n hn1 hn2 hL' ref scale w h
  intro x hx
  rcases hcase with ⟨_, hm', _⟩ | ⟨_, rfl, _⟩
  · exact absurd hm hm'
  · have himQ : (imaxOf n : ℚ) = 2 ^ n - 1 := by
      unfold imaxOf
      have := Nat.two_pow_pos n
      push_cast [Nat.cast_sub this]
      rfl
    have hi : (0 : ℚ) < imaxOf n := by exact_mod_cast imaxOf_pos n hn1
    have h1 := scaled_lt n hn1 q
    rw [← himQ, div_lt_iff₀ hi, zpow_neg, mul_comm, ← div_eq_mul_inv, lt_div_iff₀ (by positivity)]
    refine lt_of_le_of_lt (mul_le_mul_of_nonneg_right ?_ (by positivity)) h1
    have h2 := hb x hx
    have h3 := hb missing hm
    rw [abs_le]
    constructor <;> linarith

/-- **C110 (partial).** When the value that stands for missing lies between values of the grid, missing points change neither
the reference nor the step.  Missing from the full claim: everything else, in particular -9999 and usual data
(`C110_coarse`, `C110_counterexample`). -/
theorem C110_between_partial (grid : List ℚ) (missing : ℚ) (n : ℕ) (hn1 : 1 ≤ n) (hn2 : n ≤ 31)
    (hL : 32 < n * (grid.filter (· ≠ missing)).length)
    (hlo : ∃ x ∈ grid, x < missing) (hhi : ∃ x ∈ grid, missing < x)
    (ref scale ref' scale' : ℚ) (w w' : List Int) (h : packGrib grid missing n = .ok (ref, scale, w))
    (h' : packGrib (grid.filter (· ≠ missing)) missing n = .ok (ref', scale', w')) : ref = ref' ∧ scale = scale' := by
  have hsub : (grid.filter (· ≠ missing)).length ≤ grid.length := List.length_filter_le _ _
  have hL1 : 2 ≤ wordCount n grid.length := by
    have := Nat.mul_le_mul_left n hsub
    unfold wordCount; omega
  have hL2 : 2 ≤ wordCount n (grid.filter (· ≠ missing)).length := by unfold wordCount; omega
  obtain ⟨lo, hlo, hlo'⟩ := hlo
  obtain ⟨hi, hhi, hhi'⟩ := hhi
  have hlf : lo ∈ grid.filter (· ≠ missing) := by simp [hlo, hlo'.ne]
  have hhf : hi ∈ grid.filter (· ≠ missing) := by simp [hhi, hhi'.ne']
  have hmem : ∀ x, x ∈ grid.filter (· ≠ missing) ↔ x ∈ grid ∧ x ≠ missing := by simp
  generalize hg : grid.filter (· ≠ missing) = others at *
  obtain ⟨a, l, rfl⟩ : ∃ a l, grid = a :: l := by
    cases grid with
    | nil => simp at hlo
    | cons a l => exact ⟨a, l, rfl⟩
  obtain ⟨b, m, rfl⟩ : ∃ b m, others = b :: m := by
    cases others with
    | nil => simp at hlf
    | cons b m => exact ⟨b, m, rfl⟩
  obtain ⟨q, _, hb, hqe, hre, hcase⟩ := packGrib_ok a l missing n hn1 hn2 hL1 ref scale w h
  obtain ⟨q', _, hb', hqe', hre', hcase'⟩ := packGrib_ok b m missing n hn1 hn2 hL2 ref' scale' w' h'
  have hmin : qMin a l = qMin b m := by
    apply le_antisymm
    · exact qMin_le a l _ ((hmem _).mp (qMin_mem b m)).1
    · have h1 : qMin a l ≤ lo := qMin_le a l lo hlo
      exact qMin_le b m _ ((hmem _).mpr ⟨qMin_mem a l, by linarith⟩)
  have hmax : qMax a l = qMax b m := by
    apply le_antisymm
    · have h1 : hi ≤ qMax a l := le_qMax a l hi hhi
      exact le_qMax b m _ ((hmem _).mpr ⟨qMax_mem a l, by linarith⟩)
    · exact le_qMax a l _ ((hmem _).mp (qMax_mem b m)).1
  refine ⟨by rw [hre, hre', hmin], ?_⟩
  have hq : q ≠ 0 := by
    have h1 := qMin_le a l lo hlo
    have h2 := le_qMax a l hi hhi
    rw [hqe]; intro h3; linarith
  have hqq : q = q' := by rw [hqe, hqe', hmin, hmax]
  rcases hcase with ⟨h0, _⟩ | ⟨_, hs, _⟩
  · exact absurd h0 hq
  · rcases hcase' with ⟨h0, _⟩ | ⟨_, hs', _⟩
    · exact absurd (hqq.trans h0) hq
    · rw [hs, hs', hqq]

theorem up_steps (q : ℚ) (hq : 0 < q) (imax m : ℕ) (h1 : ∀ j, j ≤ m → roundEven (q * 2 ^ j) < imax)
    (h2 : (imax : ℤ) ≤ roundEven (q * 2 ^ (m + 1))) : ∀ n, n ≤ m → upLoop q hq imax n = m := by
  intro n hn
  obtain ⟨d, rfl⟩ : ∃ d, m = n + d := ⟨m - n, by omega⟩
  induction d generalizing n with
  | zero =>
    unfold upLoop
    rw [dif_neg (by have := h2; simp only [Nat.add_zero] at this; omega)]
    rfl
  | succ d ih =>
    unfold upLoop
    rw [dif_pos (h1 (n + 1) (by omega))]
    have := ih (n + 1) (by rw [show n + 1 + d = n + (d + 1) by omega]; exact h1)
      (by rw [show n + 1 + d = n + (d + 1) by omega]; exact h2) (by omega)
    rw [this]; omega

theorem scaleExp_up (n : ℕ) (q : ℤ) (hq : 0 < q) (m : ℕ) (h1 : q * 2 ^ m < imaxOf n) (h2 : (imaxOf n : ℤ) ≤ q * 2 ^ (m + 1))
    (h3 : (imaxOf n : ℚ) / 2 ^ 126 < q) : scaleExp n q = m := by
  have up : ∀ z : ℕ, roundEven ((q : ℚ) * 2 ^ z) = q * 2 ^ z := by
    intro z
    exact_mod_cast roundEven_int (q * 2 ^ z)
  have hle : ∀ j, j ≤ m → roundEven ((q : ℚ) * 2 ^ j) < imaxOf n := by
    intro j hj
    rw [up]
    refine lt_of_le_of_lt (mul_le_mul_of_nonneg_left ?_ hq.le) h1
    exact_mod_cast Nat.pow_le_pow_right (by decide : 1 ≤ 2) hj
  unfold scaleExp
  rw [dif_pos h3, dif_neg (by
    have := hle 0 (by omega)
    rw [pow_zero, mul_one] at this
    omega)]
  rw [up_steps _ _ _ m hle (by rw [up]; exact h2) 0 (by omega)]

/-- **C110 (deviation).** In 16 bits 0.3 is read to within 0.00002 from `[0, 0.3, 1]`, and as 0.25 when there is
a missing point beside. -/
theorem C110_counterexample :
    (∃ (ref scale : ℚ) (w : List Int) (out : List ℚ), packGrib [0, 3 / 10, 1] (-9999) (16 : ℕ) = .ok (ref, scale, w) ∧
      readGrib w 16 3 ref scale (some (-9999)) = .ok (some out) ∧ ∃ y, out[1]? = some y ∧ |y - 3 / 10| < 1 / 50000) ∧
    ∃ (ref scale : ℚ) (w : List Int) (out : List ℚ), packGrib [0, 3 / 10, 1, -9999] (-9999) (16 : ℕ) = .ok (ref, scale, w) ∧
      readGrib w 16 4 ref scale (some (-9999)) = .ok (some out) ∧ out[1]? = some (1 / 4 : ℚ) := by
  have hi : imaxOf 16 = 65535 := by decide
  constructor
  · have hmin : qMin 0 [3 / 10, 1] = 0 := by norm_num [qMin]
    have hmax : qMax 0 [3 / 10, 1] = 1 := by norm_num [qMax]
    have h1 : roundEven (1 : ℚ) = 1 := by simpa using roundEven_int 1
    obtain ⟨⟨ref, scale, w⟩, h⟩ := packGrib_total 0 [3 / 10, 1] (-9999) 16 (by decide) (by decide) (by decide) (by
      rw [hmin, hmax, sub_zero, h1]; norm_num)
    obtain ⟨hre, hr⟩ := pack_read _ _ _ 16 (by decide) (by decide) (by decide) ref scale w h
    have hex : scaleExp 16 1 = 15 := by
      have := scaleExp_up 16 1 (by norm_num) 15 (by rw [hi]; norm_num) (by rw [hi]; norm_num) (by rw [hi]; norm_num)
      exact_mod_cast this
    rw [hmin] at hre
    subst hre
    rw [hmin, hmax, sub_zero, hex] at hr
    refine ⟨0, scale, w, _, h, hr, _, rfl, ?_⟩
    rw [shown_at 16 (-9999) 0 15 (3 / 10) 9830 (by norm_num) (by norm_num) (by norm_num) (by norm_num), hi]
    norm_num [abs_lt]
  · have hmin : qMin 0 [3 / 10, 1, -9999] = -9999 := by norm_num [qMin]
    have hmax : qMax 0 [3 / 10, 1, -9999] = 1 := by norm_num [qMax]
    have hd : (1 - -9999 : ℚ) = 10000 := by norm_num
    have h1 : roundEven (10000 : ℚ) = 10000 := by exact_mod_cast roundEven_int 10000
    obtain ⟨⟨ref, scale, w⟩, h⟩ := packGrib_total 0 [3 / 10, 1, -9999] (-9999) 16 (by decide) (by decide) (by decide) (by
      rw [hmin, hmax, hd, h1]; norm_num)
    obtain ⟨hre, hr⟩ := pack_read _ _ _ 16 (by decide) (by decide) (by decide) ref scale w h
    have hex : scaleExp 16 10000 = 2 := by
      have := scaleExp_up 16 10000 (by norm_num) 2 (by rw [hi]; norm_num) (by rw [hi]; norm_num) (by rw [hi]; norm_num)
      exact_mod_cast this
    rw [hmin] at hre
    subst hre
    rw [hmin, hmax, hd, hex] at hr
    refine ⟨-9999, scale, w, _, h, hr, ?_⟩
    rw [List.map_cons, List.map_cons,
      shown_at 16 (-9999) (-9999) 2 (3 / 10) 39997 (by norm_num) (by norm_num) (by norm_num) (by norm_num), hi]
    norm_num

/-- Grids meeting the hypotheses of `C110_between_partial`. -/
example : (∃ r, packGrib [0, 3, 1, 2, 4, 5] 1 (8 : ℕ) = .ok r) ∧
    (∃ r, packGrib (([0, 3, 1, 2, 4, 5] : List ℚ).filter (· ≠ 1)) 1 (8 : ℕ) = .ok r) ∧
    32 < 8 * (([0, 3, 1, 2, 4, 5] : List ℚ).filter (· ≠ 1)).length := by
  have hf : ([0, 3, 1, 2, 4, 5] : List ℚ).filter (· ≠ 1) = [0, 3, 2, 4, 5] := by norm_num [List.filter]
  have h5 : roundEven (5 : ℚ) = 5 := by exact_mod_cast roundEven_int 5
  have hmin : qMin 0 [3, 1, 2, 4, 5] = 0 := by norm_num [qMin]
  have hmax : qMax 0 [3, 1, 2, 4, 5] = 5 := by norm_num [qMax]
  have hmin' : qMin 0 [3, 2, 4, 5] = 0 := by norm_num [qMin]
  have hmax' : qMax 0 [3, 2, 4, 5] = 5 := by norm_num [qMax]
  rw [hf]
  refine ⟨packGrib_total 0 _ _ 8 (by decide) (by decide) (by decide) ?_,
    packGrib_total 0 _ _ 8 (by decide) (by decide) (by decide) ?_, by decide⟩
  · rw [hmin, hmax, sub_zero, h5]; norm_num
  · rw [hmin', hmax', sub_zero, h5]; norm_num

end Gempak.Grib
