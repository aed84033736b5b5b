import Verif.Model.GribValue
import Verif.Proof.GribUnpack
import Mathlib.Algebra.Order.Field.Power

/-! Helper lemmas: scaling and rounding. -/

namespace Gempak.Grib
open Spec

theorem roundEven_mono {a b : ℚ} (h : a ≤ b) : roundEven a ≤ roundEven b := by
  have hf : ⌊a⌋ ≤ ⌊b⌋ := Int.floor_mono h
  unfold roundEven
  simp only
  rcases lt_or_eq_of_le hf with hlt | heq
  · split_ifs <;> omega
  · rw [heq] at *
    split_ifs <;> first | omega | (exfalso; linarith)

theorem roundEven_int (z : ℤ) : roundEven (z : ℚ) = z := by
  unfold roundEven; simp

theorem roundEven_le_of_lt (q : ℚ) (z : ℤ) (h : q ≤ z) : roundEven q ≤ z := by
  rw [← roundEven_int z]; exact roundEven_mono h

theorem le_roundEven_of_le (q : ℚ) (z : ℤ) (h : (z : ℚ) ≤ q) : z ≤ roundEven q := by
  rw [← roundEven_int z]; exact roundEven_mono h

theorem roundEven_nonneg (q : ℚ) (h : 0 ≤ q) : 0 ≤ roundEven q :=
  le_roundEven_of_le q 0 (by simpa using h)

theorem downLoop_spec (q imax : ℚ) (hi : 0 < imax) (n : ℕ) :
    q / 2 ^ downLoop q imax hi n < imax ∧ n ≤ downLoop q imax hi n ∧
      ∀ m, n ≤ m → m < downLoop q imax hi n → imax ≤ q / 2 ^ m := by
  fun_induction downLoop q imax hi n with
  | case1 n h ih =>
    obtain ⟨h1, h2, h3⟩ := ih
    refine ⟨h1, by omega, ?_⟩
    intro m hm hlt
    rcases Nat.eq_or_lt_of_le hm with rfl | hm
    · exact h
    · exact h3 m hm hlt
  | case2 n h => exact ⟨not_le.mp h, le_rfl, fun m h1 h2 => by omega⟩

theorem upLoop_spec (q : ℚ) (hq : 0 < q) (imax : ℕ) (n : ℕ) :
    (imax : ℤ) ≤ roundEven (q * 2 ^ (upLoop q hq imax n + 1)) ∧ n ≤ upLoop q hq imax n ∧
      (n < upLoop q hq imax n → roundEven (q * 2 ^ upLoop q hq imax n) < imax) := by
  fun_induction upLoop q hq imax n with
  | case1 n h ih =>
    obtain ⟨h1, h2, h3⟩ := ih
    refine ⟨h1, by omega, ?_⟩
    intro hlt
    rcases Nat.eq_or_lt_of_le h2 with heq | hlt'
    · rw [← heq]; exact h
    · exact h3 hlt'
  | case2 n h => exact ⟨not_lt.mp h, le_rfl, fun h => by omega⟩

theorem imaxOf_pos (n : ℕ) (h : 1 ≤ n) : 1 ≤ imaxOf n := by
  unfold imaxOf
  have : 2 ^ 1 ≤ 2 ^ n := Nat.pow_le_pow_right (by decide) h
  omega

theorem imaxOf_lt (n : ℕ) : imaxOf n < 2 ^ n := by
  unfold imaxOf
  have := Nat.two_pow_pos n
  omega

/-- The exponent chosen for a range that is not negligible. -/
theorem scaleExp_spec (n : ℕ) (hn : 1 ≤ n) (q : ℚ) (hq : (imaxOf n : ℚ) / 2 ^ 126 < q) :
    q * 2 ^ scaleExp n q < imaxOf n ∧
    (∀ m, scaleExp n q < m → (imaxOf n : ℤ) ≤ roundEven (q * 2 ^ m)) ∧
    (roundEven q < imaxOf n → roundEven (q * 2 ^ scaleExp n q) < imaxOf n) := by
  have him := imaxOf_pos n hn
  have hq0 : 0 < q := lt_of_le_of_lt (by positivity) hq
  have mono : ∀ a b : ℤ, a ≤ b → q * (2 : ℚ) ^ a ≤ q * 2 ^ b := fun a b hab =>
    mul_le_mul_of_nonneg_left (zpow_le_zpow_right₀ (by norm_num) hab) hq0.le
  unfold scaleExp
  rw [dif_pos hq]
  split_ifs with h
  · generalize hr : downLoop q (imaxOf n) (by exact_mod_cast h.1) 1 = d
    obtain ⟨h1, h2, h3⟩ := downLoop_spec q (imaxOf n) (by exact_mod_cast h.1) 1
    rw [hr] at h1 h2 h3
    have hz : ∀ k : ℕ, q * (2 : ℚ) ^ (-(k : ℤ)) = q / 2 ^ k := by
      intro k; rw [zpow_neg, zpow_natCast, div_eq_mul_inv]
    refine ⟨by rw [hz]; exact h1, ?_, fun hlt => absurd h.2 (not_le.mpr hlt)⟩
    intro m hm
    have hge : (imaxOf n : ℤ) ≤ roundEven (q * 2 ^ (-((d - 1 : ℕ) : ℤ))) := by
      rw [hz]
      rcases Nat.eq_or_lt_of_le h2 with heq | hlt
      · rw [← heq]; simpa using h.2
      · have := h3 (d - 1) (by omega) (by omega)
        exact le_roundEven_of_le _ _ (by exact_mod_cast this)
    exact le_trans hge (roundEven_mono (mono _ _ (by omega)))
  · have hlt : roundEven q < imaxOf n := by
      by_contra hc
      exact h ⟨by omega, by omega⟩
    generalize hr : upLoop q hq0 (imaxOf n) 0 = u
    obtain ⟨h1, h2, h3⟩ := upLoop_spec q hq0 (imaxOf n) 0
    rw [hr] at h1 h2 h3
    have hfit : roundEven (q * 2 ^ (u : ℤ)) < imaxOf n := by
      rw [zpow_natCast]
      rcases Nat.eq_zero_or_pos u with h0 | h0
      · rw [h0]; simpa using hlt
      · exact h3 h0
    refine ⟨?_, ?_, fun _ => hfit⟩
    · by_contra hc
      have := le_roundEven_of_le (q * 2 ^ (u : ℤ)) (imaxOf n) (by exact_mod_cast not_lt.mp hc)
      omega
    · intro m hm
      refine le_trans h1 (roundEven_mono ?_)
      have := mono ((u + 1 : ℕ) : ℤ) m (by push_cast; omega)
      rwa [zpow_natCast] at this

theorem scaleExp_tiny (n : ℕ) (q : ℚ) (hq : ¬ (imaxOf n : ℚ) / 2 ^ 126 < q) : scaleExp n q = 0 := by
  unfold scaleExp; rw [dif_neg hq]

theorem scaled_lt (n : ℕ) (hn : 1 ≤ n) (q : ℚ) : q * 2 ^ scaleExp n q < imaxOf n := by
  by_cases h : (imaxOf n : ℚ) / 2 ^ 126 < q
  · exact (scaleExp_spec n hn q h).1
  · rw [scaleExp_tiny n q h, zpow_zero, mul_one]
    refine lt_of_le_of_lt (not_lt.mp h) ?_
    have : (0 : ℚ) < imaxOf n := by exact_mod_cast imaxOf_pos n hn
    rw [div_lt_iff₀ (by positivity)]
    nlinarith [show (1 : ℚ) < 2 ^ 126 by norm_num]

theorem scaled_round_lt (n : ℕ) (hn : 1 ≤ n) (q : ℚ) (hr : roundEven q < imaxOf n) :
    roundEven (q * 2 ^ scaleExp n q) < imaxOf n := by
  by_cases h : (imaxOf n : ℚ) / 2 ^ 126 < q
  · exact (scaleExp_spec n hn q h).2.2 hr
  · rw [scaleExp_tiny n q h, zpow_zero, mul_one]; exact hr

theorem qMin_le (a : ℚ) (l : List ℚ) : ∀ x ∈ a :: l, qMin a l ≤ x := by
  unfold qMin
  induction l generalizing a with
  | nil => simp
  | cons b l ih =>
    intro x hx
    simp only [List.foldl_cons]
    have hm := ih (min a b)
    rcases List.mem_cons.mp hx with rfl | hx
    · exact le_trans (hm _ List.mem_cons_self) (min_le_left _ _)
    · rcases List.mem_cons.mp hx with rfl | hx
      · exact le_trans (hm _ List.mem_cons_self) (min_le_right _ _)
      · exact hm x (by simp [hx])

theorem le_qMax (a : ℚ) (l : List ℚ) : ∀ x ∈ a :: l, x ≤ qMax a l := by
  unfold qMax
  induction l generalizing a with
  | nil => simp
  | cons b l ih =>
    intro x hx
    simp only [List.foldl_cons]
    have hm := ih (max a b)
    rcases List.mem_cons.mp hx with rfl | hx
    · exact le_trans (le_max_left _ _) (hm _ List.mem_cons_self)
    · rcases List.mem_cons.mp hx with rfl | hx
      · exact le_trans (le_max_right _ _) (hm _ List.mem_cons_self)
      · exact hm x (by simp [hx])

theorem qMin_mem (a : ℚ) (l : List ℚ) : qMin a l ∈ a :: l := by
  unfold qMin
  induction l generalizing a with
  | nil => simp
  | cons b l ih =>
    simp only [List.foldl_cons]
    rcases List.mem_cons.mp (ih (min a b)) with h | h
    · rcases min_choice a b with h' | h' <;> rw [h, h'] <;> simp
    · simp [h]

theorem qMax_mem (a : ℚ) (l : List ℚ) : qMax a l ∈ a :: l := by
  unfold qMax
  induction l generalizing a with
  | nil => simp
  | cons b l ih =>
    simp only [List.foldl_cons]
    rcases List.mem_cons.mp (ih (max a b)) with h | h
    · rcases max_choice a b with h' | h' <;> rw [h, h'] <;> simp
    · simp [h]

/-- Scaled values stay at or below the flag value. -/
theorem quantOne_le (n : ℕ) (hn : 1 ≤ n) (missing qmin q x : ℚ) (hx : x - qmin ≤ q) (hq : 0 ≤ q) :
    quantOne n missing qmin (scaleExp n q) x ≤ imaxOf n := by
  unfold quantOne
  split
  · have h1 : max (x - qmin) 0 * 2 ^ scaleExp n q ≤ q * 2 ^ scaleExp n q :=
      mul_le_mul_of_nonneg_right (max_le hx hq) (by positivity)
    have h2 := roundEven_le_of_lt (max (x - qmin) 0 * 2 ^ scaleExp n q) (imaxOf n)
      (by have := scaled_lt n hn q; push_cast; linarith)
    omega
  · exact le_rfl

theorem quantOne_lt (n : ℕ) (hn : 1 ≤ n) (missing qmin q x : ℚ) (hx : x - qmin ≤ q) (hq : 0 ≤ q)
    (hr : roundEven q < imaxOf n) (hxm : x ≠ missing) :
    quantOne n missing qmin (scaleExp n q) x < imaxOf n := by
  unfold quantOne
  rw [if_pos hxm]
  have h1 : max (x - qmin) 0 * 2 ^ scaleExp n q ≤ q * 2 ^ scaleExp n q :=
    mul_le_mul_of_nonneg_right (max_le hx hq) (by positivity)
  have h2 := roundEven_mono h1
  have h3 := scaled_round_lt n hn q hr
  have h4 := roundEven_nonneg (max (x - qmin) 0 * 2 ^ scaleExp n q) (by positivity)
  omega

theorem quantOne_error (n : ℕ) (missing qmin x : ℚ) (e : ℤ) (hx : qmin ≤ x) (hxm : x ≠ missing) :
    |qmin + (quantOne n missing qmin e x : ℚ) * 2 ^ (-e) - x| ≤ 2 ^ (-e) / 2 := by
  unfold quantOne
  rw [if_pos hxm, max_eq_left (by linarith)]
  have hp : (0 : ℚ) < 2 ^ (-e) := by positivity
  have hnn : 0 ≤ (x - qmin) * 2 ^ e := by
    have : (0 : ℚ) ≤ x - qmin := by linarith
    positivity
  have h0 := roundEven_nonneg _ hnn
  have hcast : (((roundEven ((x - qmin) * 2 ^ e)).toNat : ℕ) : ℚ) = (roundEven ((x - qmin) * 2 ^ e) : ℚ) := by
    have : (((roundEven ((x - qmin) * 2 ^ e)).toNat : ℕ) : ℤ) = roundEven ((x - qmin) * 2 ^ e) :=
      Int.toNat_of_nonneg h0
    exact_mod_cast congrArg (Int.cast : ℤ → ℚ) this
  rw [hcast]
  have h1 := roundEven_le ((x - qmin) * 2 ^ e)
  have h2 := roundEven_ge ((x - qmin) * 2 ^ e)
  have hee : (2 : ℚ) ^ e * 2 ^ (-e) = 1 := by
    rw [← zpow_add₀ (by norm_num)]; simp
  generalize (roundEven ((x - qmin) * 2 ^ e) : ℚ) = R at *
  have hx2 : x - qmin = (x - qmin) * 2 ^ e * 2 ^ (-e) := by rw [mul_assoc, hee, mul_one]
  rw [abs_le]
  constructor <;> nlinarith

theorem qRange_cons (a : ℚ) (l : List ℚ) (missing : ℚ) : qRange (a :: l) missing = (qMin a l, qMax a l) := by
  unfold qRange
  simp only
  split
  · rename_i hall
    simp only [List.all_eq_true, decide_eq_true_eq] at hall
    rw [hall _ (qMin_mem a l), hall _ (qMax_mem a l)]
  · rfl

/-- What the packer does on success, in one place. -/
theorem packGrib_ok (a : ℚ) (l : List ℚ) (missing : ℚ) (n : ℕ) (hn1 : 1 ≤ n) (hn2 : n ≤ 31)
    (hL : 2 ≤ wordCount n (a :: l).length) (ref scale : ℚ) (w : List Int)
    (h : packGrib (a :: l) missing n = .ok (ref, scale, w)) :
    ∃ q : ℚ, 0 ≤ q ∧ (∀ x ∈ a :: l, ref ≤ x ∧ x - ref ≤ q) ∧
      (q = qMax a l - qMin a l) ∧ ref = qMin a l ∧
      ((q = 0 ∧ missing ∉ a :: l ∧ scale = 1 ∧ w = List.replicate (wordCount n (a :: l).length) 0) ∨
       (¬ (q = 0 ∧ missing ∉ a :: l) ∧ scale = 2 ^ (-(scaleExp n q)) ∧
        w = packed n ((a :: l).map (quantOne n missing ref (scaleExp n q))))) := by
  unfold packGrib at h
  rw [if_neg (by omega)] at h
  simp only [Int.toNat_natCast] at h
  rw [qRange_cons] at h
  simp only at h
  have hminmax : qMin a l ≤ qMax a l := le_trans (qMin_le a l a (by simp)) (le_qMax a l a (by simp))
  have hmem : ((a :: l).any (fun x => decide (x = missing)) = false) ↔ missing ∉ a :: l := by
    rw [List.any_eq_false]
    constructor
    · intro hx hm
      exact hx missing hm (by simp)
    · intro hx x hm
      simp only [decide_eq_true_eq]
      rintro rfl
      exact hx hm
  split_ifs at h with h1 h2
  · rw [hmem] at h2
    simp only [Except.ok.injEq, Prod.mk.injEq] at h
    obtain ⟨hr, hs, hw⟩ := h
    refine ⟨qMax a l - qMin a l, by linarith, ?_, rfl, hr.symm, Or.inl ⟨h2.1, h2.2, hs.symm, ?_⟩⟩
    · intro x hx
      have := qMin_le a l x hx
      have := le_qMax a l x hx
      rw [← hr]
      constructor <;> linarith
    · rw [← hw, lendat_eq]
  · rw [hmem] at h2
    have hbound : ∀ x ∈ (a :: l).map (quantOne n missing (qMin a l) (scaleExp n (qMax a l - qMin a l))), x < 2 ^ n := by
      intro x hx
      obtain ⟨y, hy, rfl⟩ := List.mem_map.mp hx
      refine lt_of_le_of_lt (quantOne_le n hn1 _ _ _ _ ?_ (by linarith)) (imaxOf_lt n)
      have := le_qMax a l y hy
      linarith
    have hpk := packWords_ok n hn1 hn2 _ hbound (by simpa using hL)
    rw [hpk] at h
    simp only [Except.ok.injEq, Prod.mk.injEq] at h
    obtain ⟨hr, hs, hw⟩ := h
    refine ⟨qMax a l - qMin a l, by linarith, ?_, rfl, hr.symm, Or.inr ⟨h2, hs.symm, ?_⟩⟩
    · intro x hx
      have := qMin_le a l x hx
      have := le_qMax a l x hx
      rw [← hr]
      constructor <;> linarith
    · rw [← hw, ← hr]

/-- Reading packed words. -/
theorem readGrib_packed (n : ℕ) (hn1 : 1 ≤ n) (hn2 : n ≤ 31) (r : List ℕ) (hr : ∀ x ∈ r, x < 2 ^ n)
    (hL : 2 ≤ wordCount n r.length) (ref scale : ℚ) (m : Option ℚ) :
    readGrib (packed n r) n r.length ref scale m = .ok (some (r.map (dequantOne n ref scale m))) := by
  have hlen : (packed n r).length = wordCount n r.length := by simp [packed]
  have hpos : 0 < r.length := by
    rcases Nat.eq_zero_or_pos r.length with h | h
    · rw [h] at hL; simp [wordCount] at hL
    · exact h
  unfold readGrib unpackGrib
  rw [if_pos (by omega), unpackWords_eq n hn1 hn2, if_pos ⟨hpos, by rw [hlen]; unfold wordCount; omega⟩]
  simp only [Except.map]
  congr 3
  apply List.ext_getElem
  · simp
  · intro i h1 h2
    simp only [List.getElem_map, List.getElem_range]
    exact field_packed n r hr i h2

theorem packed_zeros (n count : ℕ) : packed n (List.replicate count 0) = List.replicate (wordCount n count) 0 := by
  apply List.ext_getElem
  · simp [packed]
  · intro i h1 h2
    have hw : i < wordCount n (List.replicate count 0).length := by simpa [packed] using h1
    simp only [packed, List.getElem_map, List.getElem_range, List.getElem_replicate]
    rw [wordAt_bitString n _ (by intro x hx; rw [List.eq_of_mem_replicate hx]; exact Nat.two_pow_pos _) i hw]
    have hz : horner n (List.replicate count 0) = 0 := by
      unfold horner
      induction count with
      | zero => rfl
      | succ c ih =>
        rw [List.replicate_succ, List.foldl_cons]
        simp only [Nat.zero_mul, Nat.zero_add]
        clear h1 h2 hw ih
        induction c with
        | zero => rfl
        | succ c ih => rw [List.replicate_succ, List.foldl_cons]; simpa using ih
    rw [hz]
    simp [toI32]

end Gempak.Grib
