import Verif.Model.GribFloat
import Verif.Proof.GribValue

/-! Helper lemmas: rounding to binary floating point. -/

namespace Gempak.Grib
open Spec

theorem two_zpow_pos (k : ℤ) : (0 : ℚ) < 2 ^ k := by positivity

theorem log_le_abs {x : ℚ} (h : x ≠ 0) : (2 : ℚ) ^ Int.log 2 |x| ≤ |x| := by
  have := Int.zpow_log_le_self (b := 2) (r := |x|) (by decide) (abs_pos.mpr h)
  exact_mod_cast this

theorem abs_lt_log (x : ℚ) : |x| < (2 : ℚ) ^ (Int.log 2 |x| + 1) := by
  have := Int.lt_zpow_succ_log_self (b := 2) (by decide) |x|
  exact_mod_cast this

theorem rnd_zero (p : ℕ) : rnd p 0 = 0 := by
  unfold rnd
  rw [zero_div, show roundEven (0 : ℚ) = 0 by simpa using roundEven_int 0]
  simp

/-- The relative error of rounding. -/
theorem rnd_error (p : ℕ) (x : ℚ) : |rnd p x - x| ≤ |x| / 2 ^ p := by
  by_cases h : x = 0
  · subst h; rw [rnd_zero]; simp
  · have hl := log_le_abs h
    unfold rnd
    generalize Int.log 2 |x| = L at *
    have hu := two_zpow_pos (L - p + 1)
    generalize eu : (2 : ℚ) ^ (L - p + 1) = u at *
    have h1 := roundEven_le (x / u)
    have h2 := roundEven_ge (x / u)
    generalize (roundEven (x / u) : ℚ) = R at *
    have hx : x / u * u = x := div_mul_cancel₀ _ hu.ne'
    have hb : u / 2 ≤ |x| / 2 ^ p := by
      rw [le_div_iff₀ (by positivity), ← eu]
      refine le_trans (le_of_eq ?_) hl
      rw [div_mul_eq_mul_div, ← zpow_natCast, ← zpow_add₀ (by norm_num), div_eq_iff (by norm_num), show L - p + 1 + (p : ℤ) = L + 1 by ring,
        zpow_add_one₀ (by norm_num)]
    refine le_trans ?_ hb
    rw [abs_le]
    constructor <;> nlinarith

theorem roundEven_two_pow_le {q : ℚ} {k : ℕ} (h : |q| ≤ 2 ^ k) : |roundEven q| ≤ 2 ^ k := by
  rw [abs_le] at h ⊢
  constructor
  · have := le_roundEven_of_le q (-(2 ^ k)) (by push_cast; exact h.1)
    exact this
  · have := roundEven_le_of_lt q (2 ^ k) (by push_cast; exact h.2)
    exact this

/-- A rounded number is an integer of at most `p` bits times a power of two, or a power of two. -/
theorem rnd_form (p : ℕ) (x : ℚ) : ∃ (m k : ℤ), |m| ≤ 2 ^ p ∧ rnd p x = m * 2 ^ k := by
  refine ⟨roundEven (x / 2 ^ (Int.log 2 |x| - p + 1)), Int.log 2 |x| - p + 1, roundEven_two_pow_le ?_, rfl⟩
  rw [abs_div, abs_of_pos (two_zpow_pos _), div_le_iff₀ (two_zpow_pos _), ← zpow_natCast, ← zpow_add₀ (by norm_num),
    show (p : ℤ) + (Int.log 2 |x| - p + 1) = Int.log 2 |x| + 1 by ring]
  exact (abs_lt_log x).le

/-- Such numbers are not changed by rounding. -/
theorem rnd_exact (p : ℕ) (hp : 1 ≤ p) (m k : ℤ) (hm : |m| ≤ 2 ^ p) : rnd p (m * 2 ^ k) = m * 2 ^ k := by
  by_cases h0 : m = 0
  · subst h0; simpa using rnd_zero p
  suffices h : ∃ z : ℤ, (m * 2 ^ k : ℚ) / 2 ^ (Int.log 2 |(m * 2 ^ k : ℚ)| - p + 1) = z by
    obtain ⟨z, hz⟩ := h
    unfold rnd
    rw [hz, roundEven_int, ← hz, div_mul_cancel₀ _ (two_zpow_pos _).ne']
  have hx : (m * 2 ^ k : ℚ) ≠ 0 := mul_ne_zero (by exact_mod_cast h0) (two_zpow_pos _).ne'
  have hl := log_le_abs hx
  rw [abs_mul, abs_of_pos (two_zpow_pos k)] at hl ⊢
  generalize eL : Int.log 2 (|(m : ℚ)| * 2 ^ k) = L at *
  have hmq : |(m : ℚ)| ≤ 2 ^ p := by exact_mod_cast hm
  have hLk : L ≤ p + k := by
    have : (2 : ℚ) ^ L ≤ 2 ^ ((p : ℤ) + k) := by
      rw [zpow_add₀ (by norm_num), zpow_natCast]
      exact le_trans hl (mul_le_mul_of_nonneg_right hmq (two_zpow_pos k).le)
    exact (zpow_le_zpow_iff_right₀ (by norm_num)).mp this
  have shift : (m * 2 ^ k : ℚ) / 2 ^ (L - p + 1) = m * 2 ^ (k - (L - p + 1)) := by
    rw [mul_div_assoc, ← zpow_sub₀ (by norm_num)]
  rw [shift]
  rcases lt_or_eq_of_le hLk with hlt | heq
  · obtain ⟨d, hd⟩ : ∃ d : ℕ, k - (L - p + 1) = d := ⟨(k - (L - p + 1)).toNat, by omega⟩
    exact ⟨m * 2 ^ d, by rw [hd, zpow_natCast]; push_cast; rfl⟩
  · have hmp : |(m : ℚ)| = 2 ^ p := by
      refine le_antisymm hmq ?_
      rw [heq, zpow_add₀ (by norm_num), zpow_natCast] at hl
      exact le_of_mul_le_mul_right hl (two_zpow_pos k)
    have hmp' : |m| = 2 ^ p := by exact_mod_cast hmp
    obtain ⟨d, rfl⟩ : ∃ d, p = d + 1 := ⟨p - 1, by omega⟩
    have e1 : k - (L - (d + 1 : ℕ) + 1) = -1 := by omega
    rw [e1]
    rcases abs_eq (by positivity : (0 : ℤ) ≤ 2 ^ (d + 1)) |>.mp hmp' with e | e
    · exact ⟨2 ^ d, by rw [e]; push_cast; rw [pow_succ]; norm_num; ring⟩
    · exact ⟨-2 ^ d, by rw [e]; push_cast; rw [pow_succ]; norm_num; ring⟩

/-- Scaling a floating point number by a power of two is exact. -/
theorem rnd_scaled (p : ℕ) (hp : 1 ≤ p) (x : ℚ) (e : ℤ) : rnd p (rnd p x * 2 ^ e) = rnd p x * 2 ^ e := by
  obtain ⟨m, k, hm, hx⟩ := rnd_form p x
  rw [hx, mul_assoc, ← zpow_add₀ (by norm_num)]
  exact rnd_exact p hp m _ hm

theorem rnd_nonneg (p : ℕ) {x : ℚ} (h : 0 ≤ x) : 0 ≤ rnd p x := by
  unfold rnd
  have := roundEven_nonneg (x / 2 ^ (Int.log 2 |x| - p + 1)) (by positivity)
  have h' : (0 : ℚ) ≤ roundEven (x / 2 ^ (Int.log 2 |x| - p + 1)) := by exact_mod_cast this
  positivity

/-- Rounding keeps the order of numbers that are not negative. -/
theorem rnd_mono (p : ℕ) (hp : 1 ≤ p) {x y : ℚ} (h0 : 0 ≤ x) (h : x ≤ y) : rnd p x ≤ rnd p y := by
  rcases eq_or_lt_of_le h0 with rfl | hx
  · rw [rnd_zero]; exact rnd_nonneg p h
  have hy : 0 < y := lt_of_lt_of_le hx h
  have hL : Int.log 2 |x| ≤ Int.log 2 |y| := by
    rw [abs_of_pos hx, abs_of_pos hy]; exact Int.log_mono_right hx h
  rcases eq_or_lt_of_le hL with heq | hlt
  · unfold rnd
    rw [heq]
    refine mul_le_mul_of_nonneg_right ?_ (two_zpow_pos _).le
    exact_mod_cast roundEven_mono (div_le_div_of_nonneg_right h (two_zpow_pos _).le)
  · obtain ⟨d, rfl⟩ : ∃ d, p = d + 1 := ⟨p - 1, by omega⟩
    have h1 : rnd (d + 1) x ≤ 2 ^ (Int.log 2 |x| + 1) := by
      unfold rnd
      have hb : |x / 2 ^ (Int.log 2 |x| - (d + 1 : ℕ) + 1)| ≤ 2 ^ (d + 1) := by
        rw [abs_div, abs_of_pos (two_zpow_pos (Int.log 2 |x| - (d + 1 : ℕ) + 1)), div_le_iff₀ (two_zpow_pos _), ← zpow_natCast, ← zpow_add₀ (by norm_num),
          show ((d + 1 : ℕ) : ℤ) + (Int.log 2 |x| - (d + 1 : ℕ) + 1) = Int.log 2 |x| + 1 by ring]
        exact (abs_lt_log x).le
      have hr := le_trans (le_abs_self _) (roundEven_two_pow_le hb)
      have hr' : (roundEven (x / 2 ^ (Int.log 2 |x| - (d + 1 : ℕ) + 1)) : ℚ) ≤ 2 ^ (d + 1) := by exact_mod_cast hr
      refine le_trans (mul_le_mul_of_nonneg_right hr' (two_zpow_pos _).le) (le_of_eq ?_)
      rw [← zpow_natCast, ← zpow_add₀ (by norm_num), show ((d + 1 : ℕ) : ℤ) + (Int.log 2 |x| - (d + 1 : ℕ) + 1) = Int.log 2 |x| + 1 by ring]
    have h2 : (2 : ℚ) ^ Int.log 2 |y| ≤ rnd (d + 1) y := by
      unfold rnd
      have hb : ((2 ^ d : ℤ) : ℚ) ≤ y / 2 ^ (Int.log 2 |y| - (d + 1 : ℕ) + 1) := by
        rw [le_div_iff₀ (two_zpow_pos _)]
        push_cast
        rw [← zpow_natCast, ← zpow_add₀ (by norm_num), show (d : ℤ) + (Int.log 2 |y| - ((d : ℤ) + 1) + 1) = Int.log 2 |y| by ring]
        have := log_le_abs hy.ne'
        rwa [abs_of_pos hy] at this ⊢
      have hr := le_roundEven_of_le _ _ hb
      have hr' : (2 : ℚ) ^ d ≤ roundEven (y / 2 ^ (Int.log 2 |y| - (d + 1 : ℕ) + 1)) := by exact_mod_cast hr
      refine le_trans (le_of_eq ?_) (mul_le_mul_of_nonneg_right hr' (two_zpow_pos _).le)
      rw [← zpow_natCast, ← zpow_add₀ (by norm_num)]
      congr 1
      push_cast; ring
    exact le_trans h1 (le_trans (zpow_le_zpow_right₀ (by norm_num) (by omega)) h2)

theorem rnd_eq_zero (p : ℕ) (hp : 1 ≤ p) {x : ℚ} (h : rnd p x = 0) : x = 0 := by
  have he := rnd_error p x
  rw [h, zero_sub, abs_neg, le_div_iff₀ (by positivity)] at he
  by_contra hx
  have h1 := abs_pos.mpr hx
  have h2 : (2 : ℚ) ≤ 2 ^ p := by
    calc (2 : ℚ) = 2 ^ 1 := by norm_num
      _ ≤ 2 ^ p := pow_le_pow_right₀ (by norm_num) hp
  nlinarith

/-- A packed field is the rounded scaled difference: the product is exact. -/
theorem quantF_eq (p : ℕ) (hp : 1 ≤ p) (n : ℕ) (missing qmin : ℚ) (e : ℤ) (x : ℚ) (hx : qmin ≤ x) (hm : x ≠ missing) :
    quantF p n missing qmin e x = (roundEven (rnd p (x - qmin) * 2 ^ e)).toNat := by
  unfold quantF
  rw [if_pos hm, max_eq_left (rnd_nonneg p (by linarith)), rnd_scaled p hp]

theorem quantF_le (p : ℕ) (hp : 1 ≤ p) (n : ℕ) (hn : 1 ≤ n) (missing qmin q x : ℚ) (h0 : qmin ≤ x)
    (hx : rnd p (x - qmin) ≤ q) : quantF p n missing qmin (scaleExp n q) x ≤ imaxOf n := by
  by_cases hm : x = missing
  · unfold quantF; rw [if_neg (by simpa using hm)]
  · rw [quantF_eq p hp n missing qmin _ x h0 hm]
    have h1 : rnd p (x - qmin) * 2 ^ scaleExp n q ≤ q * 2 ^ scaleExp n q :=
      mul_le_mul_of_nonneg_right hx (by positivity)
    have h2 := roundEven_le_of_lt (rnd p (x - qmin) * 2 ^ scaleExp n q) (imaxOf n)
      (by have := scaled_lt n hn q; push_cast; linarith)
    omega

theorem quantF_lt (p : ℕ) (hp : 1 ≤ p) (n : ℕ) (hn : 1 ≤ n) (missing qmin q x : ℚ) (h0 : qmin ≤ x)
    (hx : rnd p (x - qmin) ≤ q) (hr : roundEven q < imaxOf n) (hm : x ≠ missing) :
    quantF p n missing qmin (scaleExp n q) x < imaxOf n := by
  rw [quantF_eq p hp n missing qmin _ x h0 hm]
  have h1 : rnd p (x - qmin) * 2 ^ scaleExp n q ≤ q * 2 ^ scaleExp n q :=
    mul_le_mul_of_nonneg_right hx (by positivity)
  have h2 := roundEven_mono h1
  have h3 := scaled_round_lt n hn q hr
  have hd := rnd_nonneg p (x := x - qmin) (by linarith)
  have h4 := roundEven_nonneg (rnd p (x - qmin) * 2 ^ scaleExp n q) (by positivity)
  omega

/-- The field stands for the value to within half a step and the rounding of the difference. -/
theorem quantF_error (p : ℕ) (hp : 1 ≤ p) (n : ℕ) (missing qmin x : ℚ) (e : ℤ) (h0 : qmin ≤ x) (hm : x ≠ missing) :
    |qmin + (quantF p n missing qmin e x : ℚ) * 2 ^ (-e) - x| ≤ 2 ^ (-e) / 2 + (x - qmin) / 2 ^ p := by
  have hq : quantF p n missing qmin e x = quantOne n (-1) 0 e (rnd p (x - qmin)) := by
    have hd := rnd_nonneg p (x := x - qmin) (by linarith)
    rw [quantF_eq p hp n missing qmin e x h0 hm]
    unfold quantOne
    rw [if_pos (by linarith), sub_zero, max_eq_left hd]
  have hd := rnd_nonneg p (x := x - qmin) (by linarith)
  have h1 := quantOne_error n (-1) 0 (rnd p (x - qmin)) e hd (by linarith)
  have h2 := rnd_error p (x - qmin)
  rw [← hq, zero_add] at h1
  rw [abs_of_nonneg (by linarith : (0 : ℚ) ≤ x - qmin)] at h2
  rw [abs_le] at *
  constructor <;> linarith [h1.1, h1.2, h2.1, h2.2]

/-- What the packer does on success, in one place. -/
theorem packGribF_ok (p : ℕ) (hp : 1 ≤ p) (a : ℚ) (l : List ℚ) (missing : ℚ) (n : ℕ) (hn1 : 1 ≤ n) (hn2 : n ≤ 31)
    (hL : 2 ≤ wordCount n (a :: l).length) (ref scale : ℚ) (w : List Int)
    (h : packGribF p (a :: l) missing n = .ok (ref, scale, w)) :
    ∃ q : ℚ, 0 ≤ q ∧ (∀ x ∈ a :: l, ref ≤ x ∧ rnd p (x - ref) ≤ q) ∧
      (q = rnd p (qMax a l - qMin a l)) ∧ ref = qMin a l ∧
      ((q = 0 ∧ missing ∉ a :: l ∧ scale = 1 ∧ w = List.replicate (wordCount n (a :: l).length) 0) ∨
       (scale = 2 ^ (-(scaleExp n q)) ∧ w = packed n ((a :: l).map (quantF p n missing ref (scaleExp n q))))) := by
  unfold packGribF at h
  rw [if_neg (by omega)] at h
  simp only [Int.toNat_natCast] at h
  rw [qRange_cons] at h
  simp only at h
  have hminmax : qMin a l ≤ qMax a l := le_trans (qMin_le a l a (by simp)) (le_qMax a l a (by simp))
  have hq0 : 0 ≤ rnd p (qMax a l - qMin a l) := rnd_nonneg p (by linarith)
  have hb : ∀ x ∈ a :: l, qMin a l ≤ x ∧ rnd p (x - qMin a l) ≤ rnd p (qMax a l - qMin a l) := by
    intro x hx
    have h1 := qMin_le a l x hx
    have h2 := le_qMax a l x hx
    exact ⟨h1, rnd_mono p hp (by linarith) (by linarith)⟩
  have hmem : ((a :: l).any (fun x => decide (x = missing)) = false) ↔ missing ∉ a :: l := by
    rw [List.any_eq_false]
    constructor
    · intro hx hm
      exact hx missing hm (by simp)
    · intro hx x hm
      simp only [decide_eq_true_eq]
      rintro rfl
      exact hx hm
  split_ifs at h with h1 h2
  · rw [hmem] at h2
    simp only [Except.ok.injEq, Prod.mk.injEq] at h
    obtain ⟨hr, hs, hw⟩ := h
    subst hr
    exact ⟨_, hq0, hb, rfl, rfl, Or.inl ⟨h2.1, h2.2, hs.symm, by rw [← hw, lendat_eq]⟩⟩
  · have hbound : ∀ x ∈ (a :: l).map (quantF p n missing (qMin a l) (scaleExp n (rnd p (qMax a l - qMin a l)))),
        x < 2 ^ n := by
      intro x hx
      obtain ⟨y, hy, rfl⟩ := List.mem_map.mp hx
      exact lt_of_le_of_lt (quantF_le p hp n hn1 _ _ _ _ (hb y hy).1 (hb y hy).2) (imaxOf_lt n)
    have hpk := packWords_ok n hn1 hn2 _ hbound (by simpa using hL)
    rw [hpk] at h
    simp only [Except.ok.injEq, Prod.mk.injEq] at h
    obtain ⟨hr, hs, hw⟩ := h
    subst hr
    exact ⟨_, hq0, hb, rfl, rfl, Or.inr ⟨hs.symm, hw.symm⟩⟩

/-- Reading packed words. -/
theorem readGribF_packed (n : ℕ) (hn1 : 1 ≤ n) (hn2 : n ≤ 31) (r : List ℕ) (hr : ∀ x ∈ r, x < 2 ^ n)
    (hL : 2 ≤ wordCount n r.length) (ref scale : ℚ) (m : Option ℚ) :
    readGribF (packed n r) n r.length ref scale m = .ok (some (r.map (dequantF n ref scale m))) := by
  have hlen : (packed n r).length = wordCount n r.length := by simp [packed]
  have hpos : 0 < r.length := by
    rcases Nat.eq_zero_or_pos r.length with h | h
    · rw [h] at hL; simp [wordCount] at hL
    · exact h
  unfold readGribF
  rw [if_pos (by omega), unpackWords_eq n hn1 hn2, if_pos ⟨hpos, by rw [hlen]; unfold wordCount; omega⟩]
  simp only
  congr 3
  apply List.ext_getElem
  · simp
  · intro i h1 h2
    simp only [List.getElem_map, List.getElem_range]
    exact field_packed n r hr i h2

theorem storedF_zpow (k : ℤ) : storedF (2 ^ k) = 2 ^ k := by
  have := rnd_exact 24 (by decide) 1 k (by norm_num)
  simpa [storedF] using this

/-- The value read for a field, without a missing value: the last sum is the only rounding. -/
theorem dequantF_error (n : ℕ) (hn2 : n ≤ 31) (ref : ℚ) (k : ℤ) (v : ℕ) (hv : v ≤ imaxOf n) (x E : ℚ)
    (h : |ref + v * 2 ^ k - x| ≤ E) :
    |rnd 53 (ref + rnd 53 (v * 2 ^ k)) - x| ≤ E + (|x| + E) / 2 ^ 53 := by
  have hv2 : v < 2 ^ 53 := lt_of_le_of_lt hv (lt_of_lt_of_le (imaxOf_lt n) (Nat.pow_le_pow_right (by decide) (by omega)))
  have he : rnd 53 ((v : ℚ) * 2 ^ k) = v * 2 ^ k := by
    have := rnd_exact 53 (by decide) (v : ℤ) k (by rw [abs_of_nonneg (by positivity)]; exact_mod_cast hv2.le)
    simpa using this
  rw [he]
  have h1 := rnd_error 53 (ref + v * 2 ^ k)
  generalize ref + (v : ℚ) * 2 ^ k = T at *
  have h2 : |T| ≤ |x| + E := by
    have := abs_sub_abs_le_abs_sub T x
    linarith
  have h3 : |T| / 2 ^ 53 ≤ (|x| + E) / 2 ^ 53 := div_le_div_of_nonneg_right h2 (by positivity)
  have h4 : |rnd 53 T - x| ≤ |rnd 53 T - T| + |T - x| := by
    have := abs_add_le (rnd 53 T - T) (T - x)
    simpa using this
  linarith

theorem roundEven_nearest (q : ℚ) (z : ℤ) : |(roundEven q : ℚ) - q| ≤ |(z : ℚ) - q| := by
  have h1 := roundEven_le q
  have h2 := roundEven_ge q
  have h3 : |(roundEven q : ℚ) - q| ≤ 1 / 2 := by rw [abs_le]; constructor <;> linarith
  by_cases hz : z = roundEven q
  · rw [hz]
  · have h4 : (1 : ℚ) ≤ |(z : ℚ) - roundEven q| := by
      have : 1 ≤ |z - roundEven q| := Int.one_le_abs (sub_ne_zero.mpr hz)
      exact_mod_cast this
    have h5 := abs_sub_le (z : ℚ) q (roundEven q)
    rw [abs_sub_comm q] at h5
    linarith

/-- No floating point number of `p` bits is nearer than the rounded one. -/
theorem rnd_nearest (p : ℕ) (hp : 1 ≤ p) (x : ℚ) (m k : ℤ) (hm : |m| ≤ 2 ^ p) : |rnd p x - x| ≤ |m * 2 ^ k - x| := by
  by_cases h0 : x = 0
  · subst h0; rw [rnd_zero]; simp; positivity
  have hl := log_le_abs h0
  have key : ∀ z : ℤ, |rnd p x - x| ≤ |z * 2 ^ (Int.log 2 |x| - p + 1) - x| := by
    intro z
    unfold rnd
    have hu := two_zpow_pos (Int.log 2 |x| - p + 1)
    generalize (2 : ℚ) ^ (Int.log 2 |x| - p + 1) = u at *
    have hx : x = x / u * u := (div_mul_cancel₀ _ hu.ne').symm
    have h := roundEven_nearest (x / u) z
    have e1 : ∀ y : ℚ, y * u - x = (y - x / u) * u := by intro y; rw [sub_mul, ← hx]
    rw [e1, e1, abs_mul, abs_mul]
    exact mul_le_mul_of_nonneg_right h (abs_nonneg _)
  rcases le_or_gt (Int.log 2 |x| - p + 1) k with hk | hk
  · obtain ⟨d, hd⟩ : ∃ d : ℕ, k = d + (Int.log 2 |x| - p + 1) := ⟨(k - (Int.log 2 |x| - p + 1)).toNat, by omega⟩
    have e : (m * 2 ^ k : ℚ) = ((m * 2 ^ d : ℤ) : ℚ) * 2 ^ (Int.log 2 |x| - p + 1) := by
      rw [hd, zpow_add₀ (by norm_num), zpow_natCast]; push_cast; ring
    rw [e]
    exact key _
  · have hy : |(m * 2 ^ k : ℚ)| ≤ 2 ^ Int.log 2 |x| := by
      rw [abs_mul, abs_of_pos (two_zpow_pos k)]
      have hmq : |(m : ℚ)| ≤ 2 ^ p := by exact_mod_cast hm
      refine le_trans (mul_le_mul_of_nonneg_right hmq (two_zpow_pos k).le) ?_
      rw [← zpow_natCast, ← zpow_add₀ (by norm_num)]
      exact zpow_le_zpow_right₀ (by norm_num) (by omega)
    obtain ⟨d, rfl⟩ : ∃ d, p = d + 1 := ⟨p - 1, by omega⟩
    have e2 : (2 : ℚ) ^ Int.log 2 |x| = 2 ^ d * 2 ^ (Int.log 2 |x| - (d + 1 : ℕ) + 1) := by
      rw [← zpow_natCast, ← zpow_add₀ (by norm_num)]
      congr 1
      push_cast; ring
    have h1 := abs_sub_abs_le_abs_sub x (m * 2 ^ k)
    rw [abs_sub_comm x] at h1
    rcases lt_or_gt_of_ne h0 with hneg | hpos
    · have h2 := key (-2 ^ d)
      push_cast at h2
      push_cast at e2
      rw [neg_mul, ← e2] at h2
      rw [abs_of_neg hneg] at *
      rw [abs_of_nonneg (by linarith : (0 : ℚ) ≤ -2 ^ Int.log 2 (-x) - x)] at h2
      linarith
    · have h2 := key (2 ^ d)
      push_cast at h2
      push_cast at e2
      rw [← e2] at h2
      rw [abs_of_pos hpos] at *
      rw [abs_of_nonpos (by linarith : (2 : ℚ) ^ Int.log 2 x - x ≤ 0)] at h2
      linarith

end Gempak.Grib
