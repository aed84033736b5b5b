import Verif.Proof.GribValue

/-!
# C01-C08: packed grids

The specification (`Verif/Spec/Grib.lean`) is a plain bit string; the model (`Verif/Model/Grib.lean`,
`Verif/Model/GribValue.lean`) follows the index and shift tables of the code.
-/

namespace Gempak.Grib
open Spec

/-- **C02.** The packed words are the MSB-first concatenation of the fields, cut in words, zero filled. -/
theorem C02_pack_layout (n : ℕ) (hn1 : 1 ≤ n) (hn2 : n ≤ 31) (r : List ℕ) (hr : ∀ x ∈ r, x < 2 ^ n)
    (hL : 32 < n * r.length) :
    packWords n r = .ok (packed n r) ∧ (packed n r).length = wordCount n r.length ∧
      ∀ k (hk : k < r.length), ofBits (take0 n (n * k) ((packed n r).map toU32 |> bitString 32)) = r[k] := by
  refine ⟨packWords_ok n hn1 hn2 r hr (by unfold wordCount; omega), by simp [packed], ?_⟩
  intro k hk
  exact field_packed n r hr k hk

example : packWords 12 [0xABC, 0x123, 0xFFF] = .ok [toI32 0xABC123FF, toI32 0xF0000000] := by decide +kernel

/-- **C02 (error branch).** With at most one word the packer raises instead of producing words. -/
theorem C02_pack_single_word (n : ℕ) (hn1 : 1 ≤ n) (hn2 : n ≤ 31) (r : List ℕ) (hL : n * r.length ≤ 32) :
    packWords n r = .error .valueError :=
  packWords_error n hn1 hn2 r (by unfold wordCount; omega)

example : packWords 8 [1, 2, 3, 4] = .error .valueError := by decide +kernel

/-- **C03.** For arbitrary words the unpacker returns the bit fields at their positions when the words are long
enough, and raises `IndexError` when they are not. -/
theorem C03_unpack_fields (n : ℕ) (hn1 : 1 ≤ n) (hn2 : n ≤ 31) (w : List Int) (count : ℕ) :
    unpackWords n w count =
      if 0 < count ∧ n * count ≤ 32 * w.length then .ok ((List.range count).map (field n w))
      else .error .indexError :=
  unpackWords_eq n hn1 hn2 w count

example : unpackWords 20 [-1, 0] 3 = .ok [0xFFFFF, 0xFFF00, 0] := by decide +kernel
example : unpackWords 20 [-1] 2 = .error .indexError := by decide +kernel

/-- **C01.** Unpacking the packed words returns the packed integers. -/
theorem C01_round_trip (n : ℕ) (hn1 : 1 ≤ n) (hn2 : n ≤ 31) (r : List ℕ) (hr : ∀ x ∈ r, x < 2 ^ n)
    (hL : 32 < n * r.length) :
    ∃ w, packWords n r = .ok w ∧ unpackWords n w r.length = .ok r := by
  refine ⟨packed n r, packWords_ok n hn1 hn2 r hr (by unfold wordCount; omega), ?_⟩
  have hlen : (packed n r).length = wordCount n r.length := by simp [packed]
  have hpos : 0 < r.length := by
    rcases Nat.eq_zero_or_pos r.length with h | h
    · rw [h] at hL; omega
    · exact h
  rw [unpackWords_eq n hn1 hn2, if_pos ⟨hpos, by rw [hlen]; unfold wordCount; omega⟩]
  congr 1
  apply List.ext_getElem
  · simp
  · intro i h1 h2
    simp only [List.getElem_map, List.getElem_range]
    exact field_packed n r hr i h2

example : (∀ x ∈ [5, 6, 7, 0, 1, 2, 3, 4, 7, 7, 7], x < 2 ^ 3) ∧ 32 < 3 * [5, 6, 7, 0, 1, 2, 3, 4, 7, 7, 7].length := by
  decide

/-- **C04.** In exact arithmetic every non-missing value is reproduced to within half a step, when read without the
missing flag (so that no field is taken for a missing one; see C05). -/
theorem C04_half_step (grid : List ℚ) (missing : ℚ) (n : ℕ) (hn1 : 1 ≤ n) (hn2 : n ≤ 31)
    (hL : 32 < n * grid.length) (ref scale : ℚ) (w : List Int)
    (h : packGrib grid missing n = .ok (ref, scale, w)) :
    ∃ out, readGrib w n grid.length ref scale none = .ok (some out) ∧ out.length = grid.length ∧
      ∀ k (hk : k < grid.length), grid[k] ≠ missing → ∃ hk' : k < out.length, |out[k] - grid[k]| ≤ scale / 2 := by
  have hL' : 2 ≤ wordCount n grid.length := by unfold wordCount; omega
  obtain ⟨a, l, rfl⟩ : ∃ a l, grid = a :: l := by
    cases grid with
    | nil => simp at hL
    | cons a l => exact ⟨a, l, rfl⟩
  obtain ⟨q, hq0, hb, hqe, hre, hcase⟩ := packGrib_ok a l missing n hn1 hn2 hL' ref scale w h
  rcases hcase with ⟨hq, hm, rfl, rfl⟩ | ⟨hne, rfl, rfl⟩
  · have hread := readGrib_packed n hn1 hn2 (List.replicate (a :: l).length 0)
      (by intro x hx; rw [List.eq_of_mem_replicate hx]; exact Nat.two_pow_pos _) (by simpa using hL') ref 1 none
    rw [packed_zeros, List.length_replicate] at hread
    refine ⟨_, hread, by simp, ?_⟩
    intro k hk hmk
    refine ⟨by simpa using hk, ?_⟩
    have hbk := hb (a :: l)[k] (List.getElem_mem _)
    simp only [List.getElem_map, List.getElem_replicate, dequantOne, Option.isSome_none, Bool.false_eq_true, and_false,
      if_false, Nat.cast_zero, zero_mul, add_zero]
    rw [show ref = (a :: l)[k] by linarith]
    simp
  · have hread := readGrib_packed n hn1 hn2 ((a :: l).map (quantOne n missing ref (scaleExp n q)))
      (by
        intro x hx
        obtain ⟨y, hy, rfl⟩ := List.mem_map.mp hx
        exact lt_of_le_of_lt (quantOne_le n hn1 _ _ _ _ (hb y hy).2 hq0) (imaxOf_lt n))
      (by simpa using hL') ref (2 ^ (-(scaleExp n q))) none
    rw [List.length_map] at hread
    refine ⟨_, hread, by simp, ?_⟩
    intro k hk hmk
    refine ⟨by simpa using hk, ?_⟩
    have hbk := hb (a :: l)[k] (List.getElem_mem _)
    simp only [List.getElem_map, dequantOne, Option.isSome_none, Bool.false_eq_true, and_false, if_false]
    exact quantOne_error n missing ref _ _ hbk.1 hmk

/-- **C05 (partial).** When the data range, missing values included, rounds to less than `2^n - 1` — the case in which
the code refines the scale — a point reads back missing exactly when it was missing, and within half a step
otherwise.  Missing from the full claim: larger ranges, where the code can collide with the flag
(`C05_flag_collision`). -/
theorem C05_missing_iff_partial (grid : List ℚ) (missing : ℚ) (n : ℕ) (hn1 : 1 ≤ n) (hn2 : n ≤ 31)
    (hL : 32 < n * grid.length)
    (hrange : ∀ x ∈ grid, ∀ y ∈ grid, roundEven (x - y) < 2 ^ n - 1) (ref scale : ℚ) (w : List Int)
    (h : packGrib grid missing n = .ok (ref, scale, w)) :
    ∃ out, readGrib w n grid.length ref scale (some missing) = .ok (some out) ∧ out.length = grid.length ∧
      ∀ k (hk : k < grid.length), ∃ hk' : k < out.length,
        (grid[k] = missing → out[k] = missing) ∧ (grid[k] ≠ missing → |out[k] - grid[k]| ≤ scale / 2) := by
  have hL' : 2 ≤ wordCount n grid.length := by unfold wordCount; omega
  have him : (imaxOf n : ℤ) = 2 ^ n - 1 := by
    unfold imaxOf
    have := Nat.two_pow_pos n
    push_cast [Nat.cast_sub this]
    rfl
  obtain ⟨a, l, rfl⟩ : ∃ a l, grid = a :: l := by
    cases grid with
    | nil => simp at hL
    | cons a l => exact ⟨a, l, rfl⟩
  obtain ⟨q, hq0, hb, hqe, hre, hcase⟩ := packGrib_ok a l missing n hn1 hn2 hL' ref scale w h
  have hrq : roundEven q < imaxOf n := by
    rw [him, hqe]; exact hrange _ (qMax_mem a l) _ (qMin_mem a l)
  rcases hcase with ⟨hq, hm, rfl, rfl⟩ | ⟨hne, rfl, rfl⟩
  · have hread := readGrib_packed n hn1 hn2 (List.replicate (a :: l).length 0)
      (by intro x hx; rw [List.eq_of_mem_replicate hx]; exact Nat.two_pow_pos _) (by simpa using hL') ref 1 (some missing)
    rw [packed_zeros, List.length_replicate] at hread
    refine ⟨_, hread, by simp, ?_⟩
    intro k hk
    refine ⟨by simpa using hk, ?_, ?_⟩
    · intro heq
      exact absurd (heq ▸ List.getElem_mem _) hm
    · intro _
      have hbk := hb (a :: l)[k] (List.getElem_mem _)
      have hi := imaxOf_pos n hn1
      simp only [List.getElem_map, List.getElem_replicate, dequantOne]
      rw [if_neg (by omega), show ref = (a :: l)[k] by linarith]
      simp
  · have hread := readGrib_packed n hn1 hn2 ((a :: l).map (quantOne n missing ref (scaleExp n q)))
      (by
        intro x hx
        obtain ⟨y, hy, rfl⟩ := List.mem_map.mp hx
        exact lt_of_le_of_lt (quantOne_le n hn1 _ _ _ _ (hb y hy).2 hq0) (imaxOf_lt n))
      (by simpa using hL') ref (2 ^ (-(scaleExp n q))) (some missing)
    rw [List.length_map] at hread
    refine ⟨_, hread, by simp, ?_⟩
    intro k hk
    refine ⟨by simpa using hk, ?_, ?_⟩
    · intro heq
      simp only [List.getElem_map, heq, quantOne, dequantOne]
      simp
    · intro hmk
      have hbk := hb (a :: l)[k] (List.getElem_mem _)
      have hlt := quantOne_lt n hn1 missing ref q _ hbk.2 hq0 hrq hmk
      simp only [List.getElem_map, dequantOne]
      rw [if_neg (by omega)]
      exact quantOne_error n missing ref _ _ hbk.1 hmk

/-- Concrete grid meeting the hypotheses of C04 and C05, with a missing point. -/
example : ∃ r, packGrib [0, 3, -1, 2, 1/2] (-1) 8 = .ok r := by
  have hL : 32 < 8 * ([0, 3, -1, 2, 1/2] : List ℚ).length := by decide
  have h0 : roundEven (4 : ℚ) = 4 := by simpa using roundEven_int 4
  refine ⟨(-1, 2 ^ (-(scaleExp 8 4)), packed 8 (([0, 3, -1, 2, 1/2] : List ℚ).map (quantOne 8 (-1) (-1) (scaleExp 8 4)))), ?_⟩
  have hb : ∀ x ∈ ([0, 3, -1, 2, 1/2] : List ℚ).map (quantOne 8 (-1) (-1) (scaleExp 8 4)), x < 2 ^ 8 := by
    intro x hx
    obtain ⟨y, hy, rfl⟩ := List.mem_map.mp hx
    refine lt_of_le_of_lt (quantOne_le 8 (by decide) _ _ 4 _ ?_ (by norm_num)) (imaxOf_lt 8)
    simp at hy
    rcases hy with rfl | rfl | rfl | rfl | rfl <;> norm_num
  unfold packGrib
  norm_num [qRange_cons, qMin, qMax, h0]
  have := packWords_ok 8 (by decide) (by decide) _ hb (by simp [wordCount])
  norm_num at this
  rw [show (8 : ℤ).toNat = 8 by rfl, this]

/-- **C05 (deviation).** In the coarsening branch the largest value can round to the missing flag: the grid
`[0, 131069.6, 1]` packed in 16 bits loses its maximum. -/
theorem C05_flag_collision :
    ∃ (grid : List ℚ) (ref scale : ℚ) (w : List Int),
      (-9999 : ℚ) ∉ grid ∧ packGrib grid (-9999) 16 = .ok (ref, scale, w) ∧
      ∃ out, readGrib w 16 grid.length ref scale (some (-9999)) = .ok (some out) ∧ (-9999 : ℚ) ∈ out := by
  have hexp : scaleExp 16 (655348 / 5) = -1 := by
    have hr : roundEven (655348 / 5 : ℚ) = 131070 := by
      have hf : ⌊(655348 / 5 : ℚ)⌋ = 131069 := by rw [Int.floor_eq_iff]; norm_num
      unfold roundEven
      rw [hf]; norm_num
    have hi : imaxOf 16 = 65535 := by decide
    unfold scaleExp
    simp only [hi]
    rw [dif_pos (by norm_num), dif_pos (by rw [hr]; norm_num)]
    unfold downLoop
    rw [dif_neg (by norm_num)]
    rfl
  have hq : quantOne 16 (-9999) 0 (-1) (655348 / 5) = 65535 := by
    have hf : ⌊(655348 / 5 * 2⁻¹ : ℚ)⌋ = 65534 := by rw [Int.floor_eq_iff]; norm_num
    have hm : max (655348 / 5 - 0 : ℚ) 0 = 655348 / 5 := by norm_num
    unfold quantOne
    rw [if_pos (by norm_num), hm, zpow_neg_one]
    unfold roundEven
    rw [hf]; norm_num
    rfl
  have hb : ∀ x ∈ ([0, 655348 / 5, 1] : List ℚ).map (quantOne 16 (-9999) 0 (scaleExp 16 (655348 / 5))), x < 2 ^ 16 := by
    intro x hx
    obtain ⟨y, hy, rfl⟩ := List.mem_map.mp hx
    refine lt_of_le_of_lt (quantOne_le 16 (by decide) _ _ _ _ ?_ (by norm_num)) (imaxOf_lt 16)
    simp at hy
    rcases hy with rfl | rfl | rfl <;> norm_num
  have hpk := packWords_ok 16 (by decide) (by decide) _ hb (by simp [wordCount])
  refine ⟨[0, 655348 / 5, 1], 0, 2 ^ (-(scaleExp 16 (655348 / 5))),
    packed 16 (([0, 655348 / 5, 1] : List ℚ).map (quantOne 16 (-9999) 0 (scaleExp 16 (655348 / 5)))), by norm_num, ?_, ?_⟩
  · have hr : ¬ (2147483647 : ℤ) < roundEven (655348 / 5 : ℚ) := by
      have := roundEven_le_of_lt (655348 / 5) 131070 (by norm_num)
      omega
    have hmin : qMin 0 [655348 / 5, 1] = 0 := by norm_num [qMin]
    have hmax : qMax 0 [655348 / 5, 1] = 655348 / 5 := by norm_num [qMax]
    unfold packGrib
    rw [if_neg (by norm_num)]
    simp only [qRange_cons, hmin, hmax, sub_zero]
    rw [if_neg (by push Not; exact ⟨by norm_num, not_lt.mp hr⟩), if_neg (by norm_num)]
    rw [show (16 : ℤ).toNat = 16 by rfl, hpk]
  · have hread := readGrib_packed 16 (by decide) (by decide) _ hb (by simp [wordCount]) 0
      (2 ^ (-(scaleExp 16 (655348 / 5)))) (some (-9999))
    rw [List.length_map] at hread
    refine ⟨_, hread, ?_⟩
    simp only [List.map_cons, hexp, hq, List.mem_cons]
    right; left
    simp [dequantOne, imaxOf]

/-- **C06.** For a positive (non-negligible) range the exponent search ends; the scaled range is below the flag value,
and any finer step would make the rounded range reach it. -/
theorem C06_scale_optimal (n : ℕ) (hn1 : 1 ≤ n) (q : ℚ) (hq : (2 ^ n - 1 : ℚ) / 2 ^ 126 < q) :
    q * 2 ^ scaleExp n q < 2 ^ n - 1 ∧
    (∀ m, scaleExp n q < m → (2 ^ n - 1 : ℤ) ≤ roundEven (q * 2 ^ m)) ∧
    (roundEven q < 2 ^ n - 1 → roundEven (q * 2 ^ scaleExp n q) < 2 ^ n - 1) := by
  have himZ : (imaxOf n : ℤ) = 2 ^ n - 1 := by
    unfold imaxOf
    have := Nat.two_pow_pos n
    push_cast [Nat.cast_sub this]
    rfl
  have himQ : (imaxOf n : ℚ) = 2 ^ n - 1 := by exact_mod_cast congrArg (Int.cast : ℤ → ℚ) himZ
  have := scaleExp_spec n hn1 q (by rw [himQ]; exact hq)
  rw [himQ, himZ] at this
  exact this

example : (2 ^ 16 - 1 : ℚ) / 2 ^ 126 < 100 := by norm_num

/-- **C06 (negligible ranges).** Ranges up to `2^-126 * imax` keep step one, and all values become the minimum. -/
theorem C06_negligible (n : ℕ) (hn2 : n ≤ 31) (q x qmin missing : ℚ) (hq : q ≤ (2 ^ n - 1 : ℚ) / 2 ^ 126)
    (hx1 : qmin ≤ x) (hx : x - qmin ≤ q) (hxm : x ≠ missing) :
    scaleExp n q = 0 ∧ quantOne n missing qmin (scaleExp n q) x = 0 := by
  have himQ : (imaxOf n : ℚ) = 2 ^ n - 1 := by
    unfold imaxOf
    have := Nat.two_pow_pos n
    push_cast [Nat.cast_sub this]
    rfl
  have hs := scaleExp_tiny n q (by rw [himQ]; linarith)
  refine ⟨hs, ?_⟩
  have hb : (2 : ℚ) ^ n ≤ 2 ^ 31 := by
    exact_mod_cast Nat.pow_le_pow_right (by decide : 1 ≤ 2) hn2
  have hsmall : q < 1 / 2 := by
    refine lt_of_le_of_lt hq ?_
    rw [div_lt_iff₀ (by positivity)]
    norm_num at hb ⊢
    linarith
  unfold quantOne
  rw [if_pos hxm, hs, zpow_zero, mul_one, max_eq_left (by linarith)]
  have h1 := roundEven_ge (x - qmin)
  have h2 : (roundEven (x - qmin) : ℚ) < 1 := by linarith
  have h3 : roundEven (x - qmin) < 1 := by exact_mod_cast h2
  omega

/-- **C07 (constant).** A grid with a single non-missing value packs to zeros with scale one and reads back exactly. -/
theorem C07_constant (v missing : ℚ) (count n : ℕ) (hn1 : 1 ≤ n) (hn2 : n ≤ 31) (hv : v ≠ missing)
    (hc : 0 < count) :
    packGrib (List.replicate count v) missing n = .ok (v, 1, List.replicate (wordCount n count) 0) ∧
    readGrib (List.replicate (wordCount n count) 0) n count v 1 (some missing) =
      .ok (if 32 < n * count then some (List.replicate count v) else none) := by
  obtain ⟨c, rfl⟩ : ∃ c, count = c + 1 := ⟨count - 1, by omega⟩
  have hmin : qMin v (List.replicate c v) = v := by
    have := qMin_mem v (List.replicate c v)
    rw [← List.replicate_succ] at this
    exact List.eq_of_mem_replicate this
  have hmax : qMax v (List.replicate c v) = v := by
    have := qMax_mem v (List.replicate c v)
    rw [← List.replicate_succ] at this
    exact List.eq_of_mem_replicate this
  constructor
  · unfold packGrib
    rw [if_neg (by omega), List.replicate_succ]
    simp only [Int.toNat_natCast, qRange_cons, hmin, hmax]
    have hany : ((v :: List.replicate c v).any fun x => decide (x = missing)) = false := by
      simp [hv]
    have hr0 : roundEven 0 = 0 := by simpa using roundEven_int 0
    rw [hany]
    simp [hr0, lendat_eq]
  · have hwc : (1 < (List.replicate (wordCount n (c + 1)) (0 : Int)).length) ↔ 32 < n * (c + 1) := by
      rw [List.length_replicate]; unfold wordCount; omega
    by_cases hL : 32 < n * (c + 1)
    · rw [if_pos hL]
      have hread := readGrib_packed n hn1 hn2 (List.replicate (c + 1) 0)
        (by intro x hx; rw [List.eq_of_mem_replicate hx]; exact Nat.two_pow_pos _)
        (by simp [wordCount]; omega) v 1 (some missing)
      rw [packed_zeros, List.length_replicate] at hread
      rw [hread]
      congr 2
      rw [List.map_replicate]
      have hi := imaxOf_pos n hn1
      congr 1
      unfold dequantOne
      rw [if_neg (by omega)]
      simp
    · rw [if_neg hL]
      unfold readGrib
      rw [if_neg (by rw [gt_iff_lt, hwc]; exact hL)]

example : packGrib (List.replicate 5 (3 : ℚ)) (-9999) 16 = .ok (3, 1, [0, 0, 0]) :=
  (C07_constant 3 (-9999) 5 16 (by decide) (by decide) (by norm_num) (by decide)).1

/-- **C07 (all missing).** An entirely missing grid reads back entirely missing. -/
theorem C07_all_missing (missing : ℚ) (count n : ℕ) (hn1 : 1 ≤ n) (hn2 : n ≤ 31) (hL : 32 < n * count) :
    ∃ w, packGrib (List.replicate count missing) missing n = .ok (missing, 1, w) ∧
      readGrib w n count missing 1 (some missing) = .ok (some (List.replicate count missing)) := by
  have hexp : scaleExp n 0 = 0 := by
    apply scaleExp_tiny
    have : (0 : ℚ) ≤ (imaxOf n : ℚ) / 2 ^ 126 := by positivity
    linarith
  obtain ⟨c, rfl⟩ : ∃ c, count = c + 1 := ⟨count - 1, by rcases count with _ | c <;> simp at hL ⊢⟩
  have hq : (List.replicate (c + 1) missing).map (quantOne n missing missing 0) = List.replicate (c + 1) (imaxOf n) := by
    rw [List.map_replicate]; congr 1; simp [quantOne]
  have hb : ∀ x ∈ List.replicate (c + 1) (imaxOf n), x < 2 ^ n := by
    intro x hx; rw [List.eq_of_mem_replicate hx]; exact imaxOf_lt n
  have hL' : 2 ≤ wordCount n (List.replicate (c + 1) (imaxOf n)).length := by
    rw [List.length_replicate]; unfold wordCount; omega
  have hpk := packWords_ok n hn1 hn2 _ hb hL'
  refine ⟨packed n (List.replicate (c + 1) (imaxOf n)), ?_, ?_⟩
  · unfold packGrib
    rw [if_neg (by omega)]
    have hr0 : roundEven 0 = 0 := by simpa using roundEven_int 0
    have hrg : qRange (List.replicate (c + 1) missing) missing = (missing, missing) := by
      rw [List.replicate_succ]; simp [qRange]
    have hany : ((List.replicate (c + 1) missing).any fun x => decide (x = missing)) = true := by simp
    simp only [hrg, hany, sub_self, Int.toNat_natCast, hr0]
    rw [hexp, hq, hpk]
    simp
  · have hread := readGrib_packed n hn1 hn2 _ hb hL' missing 1 (some missing)
    rw [List.length_replicate] at hread
    rw [hread, List.map_replicate]
    simp [dequantOne]

example : 32 < 16 * 3 := by decide

/-- **C07 (one word).** A grid whose packed form fits one word is never returned with wrong data: either packing
raises, or (constant grid) the reader reports no grid. -/
theorem C07_one_word (grid : List ℚ) (missing : ℚ) (n : ℕ) (hn1 : 1 ≤ n) (hn2 : n ≤ 31)
    (hL : n * grid.length ≤ 32) :
    packGrib grid missing n = .error .valueError ∨
      ∃ ref scale w, packGrib grid missing n = .ok (ref, scale, w) ∧
        ∀ m, readGrib w n grid.length ref scale m = .ok none := by
  unfold packGrib
  rw [if_neg (by omega)]
  simp only [Int.toNat_natCast]
  generalize qRange grid missing = mm
  split_ifs with h1 h2
  · left; rfl
  · right
    refine ⟨_, _, _, rfl, ?_⟩
    intro m
    unfold readGrib
    rw [if_neg]
    rw [List.length_replicate, lendat_eq]
    unfold wordCount
    omega
  · left
    rw [packWords_error n hn1 hn2 _ (by rw [List.length_map]; unfold wordCount; omega)]

example : packGrib [1, 2] (-9999) 16 = .error .valueError := by
  rcases C07_one_word [1, 2] (-9999) 16 (by decide) (by decide) (by decide) with h | ⟨r, s, w, h, _⟩
  · exact h
  · exfalso
    unfold packGrib at h
    have h1 : roundEven 1 = 1 := by simpa using roundEven_int 1
    have hp := packWords_error 16 (by decide) (by decide)
      (([1, 2] : List ℚ).map (quantOne 16 (-9999) 1 (scaleExp 16 1))) (by simp [wordCount])
    norm_num [qRange_cons, qMin, qMax, h1] at h
    norm_num at hp
    rw [show (16 : ℤ).toNat = 16 by rfl, hp] at h
    simp at h

/-- **C08.** Widths outside 1..31 are refused, whatever the grid. -/
theorem C08_bad_width (grid : List ℚ) (missing : ℚ) (n : ℤ) (hn : n < 1 ∨ 31 < n) :
    packGrib grid missing n = .error .valueError := by
  unfold packGrib
  rw [if_pos hn]

example : packGrib [1, 2, 3] (-9999) 32 = .error .valueError := C08_bad_width _ _ _ (by decide)

end Gempak.Grib
