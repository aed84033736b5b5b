import Verif.Proof.GribFloat

/-!
# C97: GRIB-style packing with the rounding of floating point numbers

A grid of 32-bit or 64-bit floats is packed, reference and scale are stored as 32-bit floats, and the grid is read.
-/

namespace Gempak.Grib
open Spec

/-- A binary floating point number of `p` significant bits (exponents without bound). -/
def Spec.IsFloat (p : ℕ) (x : ℚ) : Prop := ∃ m k : ℤ, |m| ≤ 2 ^ p ∧ x = m * 2 ^ k

/-- **C97.** The rounding of the model is rounding to a nearest floating point number. -/
theorem C97_rounding (p : ℕ) (hp : 1 ≤ p) (x : ℚ) :
    Spec.IsFloat p (rnd p x) ∧ ∀ y, Spec.IsFloat p y → |rnd p x - x| ≤ |y - x| := by
  refine ⟨rnd_form p x, ?_⟩
  rintro y ⟨m, k, hm, rfl⟩
  exact rnd_nearest p hp x m k hm

/-- What may be lost on a value `x`: half a step, the rounding of the difference to the reference, the rounding of the
reference to 32 bits, and the rounding of the result to 64 bits. -/
def Spec.loss (p : ℕ) (ref scale x : ℚ) : ℚ :=
  let e := scale / 2 + (x - ref) / 2 ^ p + |ref| / 2 ^ 24
  e + (|x| + e) / 2 ^ 53

theorem read_loss (p n : ℕ) (hp : 1 ≤ p) (hn1 : 1 ≤ n) (hn2 : n ≤ 31) (missing ref x q : ℚ) (h0 : ref ≤ x)
    (hx : rnd p (x - ref) ≤ q) (hm : x ≠ missing) :
    |rnd 53 (storedF ref + rnd 53 ((quantF p n missing ref (scaleExp n q) x : ℕ) * storedF (2 ^ (-scaleExp n q)))) - x| ≤
      Spec.loss p ref (2 ^ (-scaleExp n q)) x := by
  rw [storedF_zpow]
  refine dequantF_error n hn2 _ _ _ (quantF_le p hp n hn1 missing ref q x h0 hx) x _ ?_
  have h1 := quantF_error p hp n missing ref x (scaleExp n q) h0 hm
  have h2 := rnd_error 24 ref
  rw [abs_le] at *
  unfold storedF
  constructor <;> linarith [h1.1, h1.2, h2.1, h2.2]

theorem read_loss_constant (p : ℕ) (ref : ℚ) :
    |rnd 53 (storedF ref + rnd 53 ((0 : ℕ) * storedF 1)) - ref| ≤ Spec.loss p ref 1 ref := by
  have h := dequantF_error 1 (by decide) (storedF ref) 0 0 (Nat.zero_le _) ref (1 / 2 + (ref - ref) / 2 ^ p + |ref| / 2 ^ 24) (by
    have h2 := rnd_error 24 ref
    simp only [Nat.cast_zero, zero_mul, add_zero, sub_self, zero_div]
    unfold storedF
    linarith)
  simpa [Spec.loss] using h

/-- **C97.** Read without the missing flag, every value of the grid is reproduced to within the loss. -/
theorem C97_loss (p : ℕ) (hp : 1 ≤ p) (grid : List ℚ) (missing : ℚ) (n : ℕ) (hn1 : 1 ≤ n) (hn2 : n ≤ 31)
    (hL : 32 < n * grid.length) (ref scale : ℚ) (w : List Int) (h : packGribF p grid missing n = .ok (ref, scale, w)) :
    ∃ out, readGribF w n grid.length (storedF ref) (storedF scale) none = .ok (some out) ∧ out.length = grid.length ∧
      (∀ x ∈ grid, ref ≤ x) ∧ ref ∈ grid ∧
      ∀ k (hk : k < grid.length), grid[k] ≠ missing → ∃ hk' : k < out.length, |out[k] - grid[k]| ≤ Spec.loss p ref scale grid[k] := by
  have hL' : 2 ≤ wordCount n grid.length := by unfold wordCount; omega
  obtain ⟨a, l, rfl⟩ : ∃ a l, grid = a :: l := by
    cases grid with
    | nil => simp at hL
    | cons a l => exact ⟨a, l, rfl⟩
  obtain ⟨q, hq0, hb, hqe, hre, hcase⟩ := packGribF_ok p hp a l missing n hn1 hn2 hL' ref scale w h
  have hmem : ref ∈ a :: l := hre ▸ qMin_mem a l
  rcases hcase with ⟨hq, hm, rfl, rfl⟩ | ⟨rfl, rfl⟩
  · have hread := readGribF_packed n hn1 hn2 (List.replicate (a :: l).length 0)
      (by intro x hx; rw [List.eq_of_mem_replicate hx]; exact Nat.two_pow_pos _) (by simpa using hL') (storedF ref) (storedF 1) none
    rw [packed_zeros, List.length_replicate] at hread
    refine ⟨_, hread, by simp, fun x hx => (hb x hx).1, hmem, ?_⟩
    intro k hk hmk
    refine ⟨by simpa using hk, ?_⟩
    have hbk := hb (a :: l)[k] (List.getElem_mem _)
    have hz : (a :: l)[k] - ref = 0 := rnd_eq_zero p hp (le_antisymm (by linarith [hbk.2]) (rnd_nonneg p (by linarith [hbk.1])))
    rw [show (a :: l)[k] = ref by linarith]
    simp only [List.getElem_map, List.getElem_replicate, dequantF, Option.isSome_none, Bool.false_eq_true, and_false, if_false]
    exact read_loss_constant p ref
  · have hread := readGribF_packed n hn1 hn2 ((a :: l).map (quantF p n missing ref (scaleExp n q)))
      (by
        intro x hx
        obtain ⟨y, hy, rfl⟩ := List.mem_map.mp hx
        exact lt_of_le_of_lt (quantF_le p hp n hn1 _ _ _ _ (hb y hy).1 (hb y hy).2) (imaxOf_lt n))
      (by simpa using hL') (storedF ref) (storedF (2 ^ (-(scaleExp n q)))) none
    rw [List.length_map] at hread
    refine ⟨_, hread, by simp, fun x hx => (hb x hx).1, hmem, ?_⟩
    intro k hk hmk
    refine ⟨by simpa using hk, ?_⟩
    have hbk := hb (a :: l)[k] (List.getElem_mem _)
    simp only [List.getElem_map, dequantF, Option.isSome_none, Bool.false_eq_true, and_false, if_false]
    exact read_loss p n hp hn1 hn2 missing ref _ q hbk.1 hbk.2 hmk

/-- **C97.** Read with the missing flag: when all differences of values round to less than `2^n - 1`, a point reads back
missing when it was missing and to within the loss otherwise. -/
theorem C97_missing (p : ℕ) (hp : 1 ≤ p) (grid : List ℚ) (missing : ℚ) (n : ℕ) (hn1 : 1 ≤ n) (hn2 : n ≤ 31)
    (hL : 32 < n * grid.length) (hrange : ∀ x ∈ grid, ∀ y ∈ grid, roundEven (rnd p (x - y)) < 2 ^ n - 1)
    (ref scale : ℚ) (w : List Int) (h : packGribF p grid missing n = .ok (ref, scale, w)) :
    ∃ out, readGribF w n grid.length (storedF ref) (storedF scale) (some missing) = .ok (some out) ∧ out.length = grid.length ∧
      ∀ k (hk : k < grid.length), ∃ hk' : k < out.length,
        (grid[k] = missing → out[k] = missing) ∧ (grid[k] ≠ missing → |out[k] - grid[k]| ≤ Spec.loss p ref scale grid[k]) := by
  have hL' : 2 ≤ wordCount n grid.length := by unfold wordCount; omega
  have him : (imaxOf n : ℤ) = 2 ^ n - 1 := by
    unfold imaxOf
    have := Nat.two_pow_pos n
    push_cast [Nat.cast_sub this]
    rfl
  obtain ⟨a, l, rfl⟩ : ∃ a l, grid = a :: l := by
    cases grid with
    | nil => simp at hL
    | cons a l => exact ⟨a, l, rfl⟩
  obtain ⟨q, hq0, hb, hqe, hre, hcase⟩ := packGribF_ok p hp a l missing n hn1 hn2 hL' ref scale w h
  have hrq : roundEven q < imaxOf n := by
    rw [him, hqe]; exact hrange _ (qMax_mem a l) _ (qMin_mem a l)
  rcases hcase with ⟨hq, hm, rfl, rfl⟩ | ⟨rfl, rfl⟩
  · have hread := readGribF_packed n hn1 hn2 (List.replicate (a :: l).length 0)
      (by intro x hx; rw [List.eq_of_mem_replicate hx]; exact Nat.two_pow_pos _) (by simpa using hL') (storedF ref) (storedF 1)
      (some missing)
    rw [packed_zeros, List.length_replicate] at hread
    refine ⟨_, hread, by simp, ?_⟩
    intro k hk
    refine ⟨by simpa using hk, fun heq => absurd (heq ▸ List.getElem_mem _) hm, fun _ => ?_⟩
    have hbk := hb (a :: l)[k] (List.getElem_mem _)
    have hi := imaxOf_pos n hn1
    have hz : (a :: l)[k] - ref = 0 := rnd_eq_zero p hp (le_antisymm (by linarith [hbk.2]) (rnd_nonneg p (by linarith [hbk.1])))
    rw [show (a :: l)[k] = ref by linarith]
    simp only [List.getElem_map, List.getElem_replicate, dequantF]
    rw [if_neg (by omega)]
    exact read_loss_constant p ref
  · have hread := readGribF_packed n hn1 hn2 ((a :: l).map (quantF p n missing ref (scaleExp n q)))
      (by
        intro x hx
        obtain ⟨y, hy, rfl⟩ := List.mem_map.mp hx
        exact lt_of_le_of_lt (quantF_le p hp n hn1 _ _ _ _ (hb y hy).1 (hb y hy).2) (imaxOf_lt n))
      (by simpa using hL') (storedF ref) (storedF (2 ^ (-(scaleExp n q)))) (some missing)
    rw [List.length_map] at hread
    refine ⟨_, hread, by simp, ?_⟩
    intro k hk
    refine ⟨by simpa using hk, ?_, ?_⟩
    · intro heq
      simp only [List.getElem_map, heq, quantF, dequantF]
      simp
    · intro hmk
      have hbk := hb (a :: l)[k] (List.getElem_mem _)
      have hlt := quantF_lt p hp n hn1 missing ref q _ hbk.1 hbk.2 hrq hmk
      simp only [List.getElem_map, dequantF]
      rw [if_neg (by omega)]
      exact read_loss p n hp hn1 hn2 missing ref _ q hbk.1 hbk.2 hmk

/-- The grid of `C97_half_step_lost`. -/
def Spec.largeGrid : List ℚ := [16777217, 16777217, 16777217]

theorem largeGrid_packs : packGribF 53 Spec.largeGrid (-9999) 16 = .ok (16777217, 1, [0, 0]) := by
  have h0 : roundEven (0 : ℚ) = 0 := by simpa using roundEven_int 0
  unfold packGribF Spec.largeGrid
  norm_num [qRange_cons, qMin, qMax, rnd_zero, h0]
  decide

theorem storedF_large : storedF 16777217 = 16777216 := by
  have hl : Int.log 2 |(16777217 : ℚ)| = 24 := by
    have hlog : Int.log 2 (16777217 : ℚ) = ((Nat.log 2 16777217 : ℕ) : ℤ) := by
      have := Int.log_natCast (R := ℚ) 2 16777217
      simpa using this
    rw [abs_of_pos (by norm_num), hlog, Nat.log_eq_of_pow_le_of_lt_pow (m := 24) (by norm_num) (by norm_num)]
    rfl
  have hf : ⌊(16777217 / 2 : ℚ)⌋ = 8388608 := by rw [Int.floor_eq_iff]; norm_num
  have hr : roundEven (16777217 / 2 : ℚ) = 8388608 := by
    unfold roundEven
    rw [hf]; norm_num
  unfold storedF rnd
  rw [hl]
  norm_num
  rw [hr]; norm_num

/-- **C97 (deviation).** Half a step is not reached in general: the reference is kept as a 32-bit float.  A constant grid of
64-bit floats 16777217 is packed with scale 1 and reads back as 16777216. -/
theorem C97_half_step_lost :
    ∃ (ref scale : ℚ) (w : List Int), packGribF 53 Spec.largeGrid (-9999) 16 = .ok (ref, scale, w) ∧
      ∃ out, readGribF w 16 3 (storedF ref) (storedF scale) none = .ok (some out) ∧
        ∃ h : 0 < out.length, |out[0] - 16777217| > scale / 2 := by
  refine ⟨16777217, 1, [0, 0], largeGrid_packs, ?_⟩
  have hread := readGribF_packed 16 (by decide) (by decide) (List.replicate 3 0)
    (by intro x hx; rw [List.eq_of_mem_replicate hx]; exact Nat.two_pow_pos _) (by simp [wordCount]) (storedF 16777217) (storedF 1) none
  rw [packed_zeros, List.length_replicate] at hread
  refine ⟨_, hread, by simp, ?_⟩
  have e53 : rnd 53 16777216 = 16777216 := by
    have := rnd_exact 53 (by decide) 16777216 0 (by norm_num)
    simpa using this
  simp only [List.getElem_map, List.getElem_replicate, dequantF, Option.isSome_none, Bool.false_eq_true, and_false, if_false,
    Nat.cast_zero, zero_mul, rnd_zero, add_zero, storedF_large, e53]
  norm_num

/-- **C97 (one word).** A grid whose values take at most 32 bits in all is never read with wrong values: it cannot be packed, or, when
constant, nothing is read for it. -/
theorem C97_one_word (p : ℕ) (grid : List ℚ) (missing : ℚ) (n : ℕ) (hn1 : 1 ≤ n) (hn2 : n ≤ 31) (hL : n * grid.length ≤ 32) :
    packGribF p grid missing n = .error .valueError ∨
      ∃ ref scale w, packGribF p grid missing n = .ok (ref, scale, w) ∧
        ∀ m, readGribF w n grid.length (storedF ref) (storedF scale) m = .ok none := by
  unfold packGribF
  rw [if_neg (by omega)]
  simp only [Int.toNat_natCast]
  generalize qRange grid missing = mm
  split_ifs with h1 h2
  · left; rfl
  · right
    refine ⟨_, _, _, rfl, ?_⟩
    intro m
    unfold readGribF
    rw [if_neg]
    rw [List.length_replicate, lendat_eq]
    unfold wordCount
    omega
  · left
    rw [packWords_error n hn1 hn2 _ (by rw [List.length_map]; unfold wordCount; omega)]

/-- A constant grid of two values of 16 bits. -/
example : ∃ ref scale w, packGribF 24 [5, 5] (-9999) 16 = .ok (ref, scale, w) ∧ readGribF w 16 2 (storedF ref) (storedF scale) none = .ok none := by
  rcases C97_one_word 24 [5, 5] (-9999) 16 (by decide) (by decide) (by decide) with h | ⟨r, s, w, h, hw⟩
  · exfalso
    unfold packGribF at h
    have h1 : roundEven 0 = 0 := by simpa using roundEven_int 0
    norm_num [qRange_cons, qMin, qMax, rnd_zero, h1] at h
    cases h
  · exact ⟨r, s, w, h, hw none⟩

/-- **C97.** Every grid whose differences round to 31-bit integers is packed. -/
theorem C97_packs (p : ℕ) (hp : 1 ≤ p) (grid : List ℚ) (missing : ℚ) (n : ℕ) (hn1 : 1 ≤ n) (hn2 : n ≤ 31)
    (hL : 32 < n * grid.length) (hd : ∀ x ∈ grid, ∀ y ∈ grid, roundEven (rnd p (x - y)) ≤ 2147483647) :
    ∃ r, packGribF p grid missing n = .ok r := by
  have hL' : 2 ≤ wordCount n grid.length := by unfold wordCount; omega
  obtain ⟨a, l, rfl⟩ : ∃ a l, grid = a :: l := by
    cases grid with
    | nil => simp at hL
    | cons a l => exact ⟨a, l, rfl⟩
  unfold packGribF
  rw [if_neg (by omega)]
  simp only [Int.toNat_natCast]
  rw [qRange_cons]
  simp only
  have hminmax : qMin a l ≤ qMax a l := le_trans (qMin_le a l a (by simp)) (le_qMax a l a (by simp))
  have hq0 : 0 ≤ rnd p (qMax a l - qMin a l) := rnd_nonneg p (by linarith)
  have hb : ∀ x ∈ a :: l, qMin a l ≤ x ∧ rnd p (x - qMin a l) ≤ rnd p (qMax a l - qMin a l) := by
    intro x hx
    have h1 := qMin_le a l x hx
    have h2 := le_qMax a l x hx
    exact ⟨h1, rnd_mono p hp (by linarith) (by linarith)⟩
  rw [if_neg (by
    rintro (h | h)
    · linarith
    · have := hd _ (qMax_mem a l) _ (qMin_mem a l); omega)]
  split_ifs
  · exact ⟨_, rfl⟩
  · have hbound : ∀ x ∈ (a :: l).map (quantF p n missing (qMin a l) (scaleExp n (rnd p (qMax a l - qMin a l)))),
        x < 2 ^ n := by
      intro x hx
      obtain ⟨y, hy, rfl⟩ := List.mem_map.mp hx
      exact lt_of_le_of_lt (quantF_le p hp n hn1 _ _ _ _ (hb y hy).1 (hb y hy).2) (imaxOf_lt n)
    rw [packWords_ok n hn1 hn2 _ hbound (by simpa using hL')]
    exact ⟨_, rfl⟩

/-- A grid with a missing point, meeting the hypotheses of `C97_loss`, `C97_missing` and `C97_packs` for 64-bit floats. -/
example : 32 < 8 * ([0, 3, -1, 2] ++ [7] : List ℚ).length ∧
    (∀ x ∈ ([0, 3, -1, 2, 7] : List ℚ), ∀ y ∈ ([0, 3, -1, 2, 7] : List ℚ), roundEven (rnd 53 (x - y)) < 2 ^ 8 - 1) ∧
    ∃ r, packGribF 53 [0, 3, -1, 2, 7] (-1) (8 : ℕ) = .ok r := by
  have key : ∀ z : ℤ, |z| ≤ 8 → roundEven (rnd 53 (z : ℚ)) ≤ 8 := by
    intro z hz
    have := rnd_exact 53 (by decide) z 0 (by omega)
    rw [zpow_zero, mul_one] at this
    rw [this, roundEven_int]
    exact le_trans (le_abs_self z) hz
  have hall : ∀ x ∈ ([0, 3, -1, 2, 7] : List ℚ), ∀ y ∈ ([0, 3, -1, 2, 7] : List ℚ), roundEven (rnd 53 (x - y)) ≤ 8 := by
    intro x hx y hy
    have hx' : ∃ a : ℤ, -1 ≤ a ∧ a ≤ 7 ∧ x = a := by
      simp at hx
      rcases hx with rfl | rfl | rfl | rfl | rfl
      exacts [⟨0, by simp⟩, ⟨3, by simp⟩, ⟨-1, by simp⟩, ⟨2, by simp⟩, ⟨7, by simp⟩]
    have hy' : ∃ a : ℤ, -1 ≤ a ∧ a ≤ 7 ∧ y = a := by
      simp at hy
      rcases hy with rfl | rfl | rfl | rfl | rfl
      exacts [⟨0, by simp⟩, ⟨3, by simp⟩, ⟨-1, by simp⟩, ⟨2, by simp⟩, ⟨7, by simp⟩]
    obtain ⟨a, ha1, ha2, rfl⟩ := hx'
    obtain ⟨b, hb1, hb2, rfl⟩ := hy'
    have := key (a - b) (by rw [abs_le]; constructor <;> omega)
    push_cast at this
    exact this
  refine ⟨by decide, fun x hx y hy => ?_, C97_packs 53 (by decide) _ _ 8 (by decide) (by decide) (by decide) fun x hx y hy => ?_⟩
  · have := hall x hx y hy; omega
  · have := hall x hx y hy; omega

end Gempak.Grib
