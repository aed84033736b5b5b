import Verif.Proof.Resave

/-!
# C109: saving again what was read from a packed grid

In exact arithmetic, as in C04 to C07; with the missing flag, as grid files are read.
-/

namespace Gempak.Grib
open Spec

/-- Every value read is missing or a whole number of steps above the reference, and either all are at the reference or the
steps chosen for what was read are at least as fine. -/
theorem steps_again (a : ℚ) (l : List ℚ) (missing : ℚ) (n : ℕ) (hn1 : 1 ≤ n) (hn2 : n ≤ 31) (e : ℤ)
    (he : e = scaleExp n (qMax a l - qMin a l))
    (hkeep : ∀ x ∈ a :: l, shown n missing (qMin a l) e x = missing → x = missing)
    (q' : ℚ) (hup : ∀ x ∈ a :: l, shown n missing (qMin a l) e x - qMin a l ≤ q')
    (hat : ∃ x ∈ a :: l, q' = shown n missing (qMin a l) e x - qMin a l) :
    (∀ x ∈ a :: l, x ≠ missing → shown n missing (qMin a l) e x = qMin a l) ∨
      (e ≤ scaleExp n q' ∧ ∀ x ∈ a :: l, x ≠ missing → ∃ k : ℕ, shown n missing (qMin a l) e x = qMin a l + k * 2 ^ (-e)) := by
  set ref := qMin a l with href
  set q := qMax a l - ref with hqd
  have hb : ∀ x ∈ a :: l, ref ≤ x ∧ x - ref ≤ q := fun x hx =>
    ⟨qMin_le a l x hx, by have := le_qMax a l x hx; rw [hqd]; linarith⟩
  have hq0 : 0 ≤ q := by have := hb a (by simp); linarith
  -- a value that was not missing is read from its number of steps
  have hsh : ∀ x ∈ a :: l, x ≠ missing → quantOne n missing ref e x ≠ imaxOf n ∧
      shown n missing ref e x = ref + (quantOne n missing ref e x : ℕ) * 2 ^ (-e) := by
    intro x hx hm
    have h1 : quantOne n missing ref e x ≠ imaxOf n := by
      intro hc
      exact hm (hkeep x hx (by simp [shown, dequantOne, hc]))
    refine ⟨h1, ?_⟩
    unfold shown dequantOne
    rw [if_neg (by tauto)]
  have hcode : ∀ x ∈ a :: l, x ≠ missing → (quantOne n missing ref e x : ℤ) = roundEven ((x - ref) * 2 ^ e) := by
    intro x hx hm
    unfold quantOne
    rw [if_pos hm, max_eq_left (by linarith [(hb x hx).1])]
    exact Int.toNat_of_nonneg (roundEven_nonneg _ (mul_nonneg (by linarith [(hb x hx).1]) (by positivity)))
  by_cases hq : (imaxOf n : ℚ) / 2 ^ 126 < q
  · set K := roundEven (q * 2 ^ e) with hK
    have hKle : ∀ x ∈ a :: l, roundEven ((x - ref) * 2 ^ e) ≤ K := fun x hx =>
      roundEven_mono (mul_le_mul_of_nonneg_right (hb x hx).2 (by positivity))
    have hK0 : 0 ≤ K := roundEven_nonneg _ (by positivity)
    have hKi : K ≤ imaxOf n := roundEven_le_of_lt _ _ (by
      have := scaled_lt n hn1 q
      rw [← he] at this
      exact_mod_cast this.le)
    rcases eq_or_lt_of_le hK0 with hz | hpos
    · left
      intro x hx hm
      have h0 : (quantOne n missing ref e x : ℤ) = 0 := by
        have h1 := hcode x hx hm
        have h2 := hKle x hx
        omega
      rw [(hsh x hx hm).2, show quantOne n missing ref e x = 0 by omega]
      simp
    · right
      refine ⟨?_, fun x hx hm => ⟨_, (hsh x hx hm).2⟩⟩
      -- the range of what was read
      have h2e : (2 : ℚ) ^ (-e) * 2 ^ e = 1 := by rw [← zpow_add₀ (by norm_num)]; simp
      have hpe : (0 : ℚ) < 2 ^ e := by positivity
      obtain ⟨z, hz, hqz⟩ := hat
      have hmax := qMax_mem a l
      have hci : ∀ x ∈ a :: l, x ≠ missing → roundEven ((x - ref) * 2 ^ e) < imaxOf n := by
        intro x hx hm
        have g1 : (quantOne n missing ref e x : ℤ) ≠ imaxOf n := by exact_mod_cast (hsh x hx hm).1
        have g2 := hcode x hx hm
        have g3 := hKle x hx
        omega
      have hthr : (imaxOf n : ℚ) / 2 ^ 126 < q' := by
        by_cases hmm : qMax a l = missing
        · have := hup _ hmax
          rw [hmm, shown_missing] at this
          have h3 : q = missing - ref := by rw [hqd, hmm]
          linarith
        · have h3 := hup _ hmax
          rw [(hsh _ hmax hmm).2] at h3
          have h4 := hcode _ hmax hmm
          have h5 := range_kept n hn1 q hq (by rw [← he]; exact hpos)
          rw [← he, ← hK] at h5
          have h6 : ((quantOne n missing ref e (qMax a l) : ℕ) : ℚ) = K := by
            rw [hK, hqd]; exact_mod_cast h4
          rw [h6] at h3
          linarith
      by_cases hzm : z = missing
      · rw [hzm, shown_missing] at hqz
        by_cases hmm : qMax a l = missing
        · rw [hqz, ← hmm, ← hqd, he]
        · refine le_scaleExp n hn1 q' hthr e (lt_of_le_of_lt (roundEven_mono ?_) (hci _ hmax hmm))
          rw [hqz]
          have := le_qMax a l z hz
          exact mul_le_mul_of_nonneg_right (by rw [← hzm]; linarith) hpe.le
      · refine le_scaleExp n hn1 q' hthr e ?_
        have g5 : q' * 2 ^ e = ((quantOne n missing ref e z : ℤ) : ℚ) := by
          rw [hqz, (hsh z hz hzm).2]
          push_cast
          calc (ref + (quantOne n missing ref e z : ℕ) * 2 ^ (-e) - ref) * 2 ^ e =
              (quantOne n missing ref e z : ℕ) * ((2 : ℚ) ^ (-e) * 2 ^ e) := by ring
            _ = _ := by rw [h2e, mul_one]
        rw [g5, roundEven_int, hcode z hz hzm]
        exact hci z hz hzm
  · left
    intro x hx hm
    have he0 : e = 0 := by rw [he]; exact scaleExp_tiny n q hq
    have hb31 : (imaxOf n : ℚ) < 2 ^ 31 := by
      have h1 := imaxOf_lt n
      have h2 : 2 ^ n ≤ 2 ^ 31 := Nat.pow_le_pow_right (by decide : 1 ≤ 2) hn2
      exact_mod_cast lt_of_lt_of_le h1 h2
    have hsmall : q < 1 / 2 := by
      refine lt_of_le_of_lt (not_lt.mp hq) ?_
      rw [div_lt_iff₀ (by positivity)]
      norm_num at hb31 ⊢
      linarith
    have h1 := roundEven_ge ((x - ref) * 2 ^ e)
    have h2 := hcode x hx hm
    have h3 := (hb x hx).2
    rw [he0, zpow_zero, mul_one] at h1 h2
    have h4 : (roundEven (x - ref) : ℚ) < 1 := by linarith
    have h5 : roundEven (x - ref) < 1 := by exact_mod_cast h4
    rw [(hsh x hx hm).2, he0, show quantOne n missing ref 0 x = 0 by omega]
    simp

/-- **C109 (partial).** When a packed grid is read and no value was lost to the missing flag, what was read is packed
again, with the same number of bits, and the copy reads as exactly the same values.  So copies of copies do not drift.
Missing from the full claim: grids with a value lost to the flag (`C109_counterexample`), and grids whose range is rounded
up to one that is refused. -/
theorem C109_resave_partial (grid : List ℚ) (missing : ℚ) (n : ℕ) (hn1 : 1 ≤ n) (hn2 : n ≤ 31)
    (hL : 32 < n * grid.length) (ref scale : ℚ) (w : List Int) (out : List ℚ)
    (h : packGrib grid missing n = .ok (ref, scale, w))
    (hread : readGrib w n grid.length ref scale (some missing) = .ok (some out))
    (hkeep : ∀ k : ℕ, out[k]? = some missing → grid[k]? = some missing)
    (hrange : ∀ x ∈ out, ∀ y ∈ out, roundEven (x - y) ≤ 2147483647) :
    ∃ ref2 scale2 w2, packGrib out missing n = .ok (ref2, scale2, w2) ∧
      readGrib w2 n out.length ref2 scale2 (some missing) = .ok (some out) := by
  have hL' : 2 ≤ wordCount n grid.length := by unfold wordCount; omega
  obtain ⟨a, l, rfl⟩ : ∃ a l, grid = a :: l := by
    cases grid with
    | nil => simp at hL
    | cons a l => exact ⟨a, l, rfl⟩
  obtain ⟨hre, hr⟩ := pack_read a l missing n hn1 hn2 hL' ref scale w h
  rw [hr] at hread
  simp only [Except.ok.injEq, Option.some.injEq] at hread
  obtain ⟨e, he⟩ : ∃ e, e = scaleExp n (qMax a l - qMin a l) := ⟨_, rfl⟩
  rw [← he] at hread
  set f := shown n missing ref e with hf
  have hkeep' : ∀ x ∈ a :: l, f x = missing → x = missing := by
    intro x hx hm
    obtain ⟨k, hk, rfl⟩ := List.getElem_of_mem hx
    have := hkeep k (by rw [← hread, List.getElem?_map, List.getElem?_eq_getElem hk]; simp [hm])
    rw [List.getElem?_eq_getElem hk] at this
    exact Option.some.inj this
  have hout : out = f a :: l.map f := by rw [← hread, List.map_cons]
  have hlen : out.length = (a :: l).length := by rw [← hread]; simp
  have hrefm : ref ∈ a :: l := hre ▸ qMin_mem a l
  have hle : ∀ x ∈ a :: l, ref ≤ x := fun x hx => hre ▸ qMin_le a l x hx
  -- the reference stays
  have hfle : ∀ x ∈ a :: l, ref ≤ f x := by
    intro x hx
    by_cases hm : f x = missing
    · rw [hm, ← hkeep' x hx hm]; exact hle x hx
    · have : f x = ref + (quantOne n missing ref e x : ℕ) * 2 ^ (-e) := by
        rw [hf] at hm ⊢
        unfold shown dequantOne at hm ⊢
        split_ifs with hc
        · rw [if_pos hc] at hm; simp at hm
        · rfl
      rw [this]
      have : (0 : ℚ) ≤ (quantOne n missing ref e x : ℕ) * 2 ^ (-e) := by positivity
      linarith
  have hmem : ∀ y, y ∈ f a :: l.map f → ∃ x ∈ a :: l, f x = y := by
    intro y hy
    rw [← List.map_cons] at hy
    exact List.mem_map.mp hy
  have hmap : ∀ x ∈ a :: l, f x ∈ f a :: l.map f := fun x hx => by
    rw [← List.map_cons]; exact List.mem_map_of_mem hx
  have hmin : qMin (f a) (l.map f) = ref := by
    apply le_antisymm
    · have := qMin_le (f a) (l.map f) (f ref) (hmap ref hrefm)
      rwa [hf, shown_ref n hn1, ← hf] at this
    · obtain ⟨x, hx, hxe⟩ := hmem _ (qMin_mem (f a) (l.map f))
      rw [← hxe]; exact hfle x hx
  have hLo : 2 ≤ wordCount n (f a :: l.map f).length := by
    have : (f a :: l.map f).length = (a :: l).length := by simp
    rw [this]; exact hL'
  obtain ⟨⟨ref2, scale2, w2⟩, h2⟩ := packGrib_total (f a) (l.map f) missing n hn1 hn2 hLo (by
    rw [hout] at hrange
    exact hrange _ (qMax_mem _ _) _ (qMin_mem _ _))
  obtain ⟨hre2, hr2⟩ := pack_read (f a) (l.map f) missing n hn1 hn2 hLo ref2 scale2 w2 h2
  rw [hout]
  refine ⟨ref2, scale2, w2, h2, ?_⟩
  rw [hr2]
  congr 2
  rw [hmin] at hre2 ⊢
  rw [hre2]
  set q' := qMax (f a) (l.map f) - ref with hq'
  have hsteps := steps_again a l missing n hn1 hn2 e he (by rw [← hre]; exact hkeep') q'
    (by
      intro x hx
      have := le_qMax (f a) (l.map f) (f x) (hmap x hx)
      rw [← hre, hq']; linarith)
    (by
      obtain ⟨x, hx, hxe⟩ := hmem _ (qMax_mem (f a) (l.map f))
      exact ⟨x, hx, by rw [← hre, hq', ← hxe]⟩)
  rw [← hre, ← hf] at hsteps
  rw [← List.map_cons, List.map_map]
  apply List.map_congr_left
  intro x hx
  show shown n missing ref (scaleExp n q') (f x) = f x
  by_cases hm : x = missing
  · rw [hm, hf, shown_missing, shown_missing]
  · rcases hsteps with hall | ⟨hge, hk⟩
    · rw [hall x hx hm, shown_ref n hn1]
    · obtain ⟨k, hk⟩ := hk x hx hm
      refine shown_steps n hn1 missing ref q' (f x) e k hk ?_ hge
      have := le_qMax (f a) (l.map f) (f x) (hmap x hx)
      rw [hq']; linarith

theorem roundEven_at (x : ℚ) (z : ℤ) (h1 : (z : ℚ) - 1 / 2 < x) (h2 : x < z + 1 / 2) : roundEven x = z := by
  have h3 := roundEven_le x
  have h4 := roundEven_ge x
  have h5 : (roundEven x : ℚ) < (z + 1 : ℤ) := by push_cast; linarith
  have h6 : ((z - 1 : ℤ) : ℚ) < roundEven x := by push_cast; linarith
  have h7 : roundEven x < z + 1 := by exact_mod_cast h5
  have h8 : z - 1 < roundEven x := by exact_mod_cast h6
  omega

/-- The grid of `C109_counterexample`. -/
def lossyGrid : List ℚ := [0, 100, 2548 / 5, 100, 100]

theorem lossy_exp : scaleExp 8 (2548 / 5) = -1 := by
  have hr : roundEven (2548 / 5 : ℚ) = 510 := roundEven_at _ _ (by norm_num) (by norm_num)
  have hi : imaxOf 8 = 255 := by decide
  unfold scaleExp
  simp only [hi]
  rw [dif_pos (by norm_num), dif_pos (by rw [hr]; norm_num)]
  unfold downLoop
  rw [dif_neg (by norm_num)]
  rfl

theorem lossy_exp2 : scaleExp 8 10099 = -6 := by
  have hr : roundEven (10099 : ℚ) = 10099 := by exact_mod_cast roundEven_int 10099
  have hi : imaxOf 8 = 255 := by decide
  unfold scaleExp
  simp only [hi]
  rw [dif_pos (by norm_num), dif_pos (by rw [hr]; norm_num)]
  unfold downLoop
  rw [dif_pos (by norm_num)]
  unfold downLoop
  rw [dif_pos (by norm_num)]
  unfold downLoop
  rw [dif_pos (by norm_num)]
  unfold downLoop
  rw [dif_pos (by norm_num)]
  unfold downLoop
  rw [dif_pos (by norm_num)]
  unfold downLoop
  rw [dif_neg (by norm_num)]
  rfl

theorem shown_at (n : ℕ) (missing ref : ℚ) (e : ℤ) (x : ℚ) (z : ℕ) (hm : x ≠ missing) (hx : ref ≤ x)
    (h1 : (z : ℚ) - 1 / 2 < (x - ref) * 2 ^ e) (h2 : (x - ref) * 2 ^ e < z + 1 / 2) :
    shown n missing ref e x = if z = imaxOf n then missing else ref + z * 2 ^ (-e) := by
  have hq : quantOne n missing ref e x = z := by
    unfold quantOne
    rw [if_pos hm, max_eq_left (by linarith), roundEven_at _ z (by push_cast; exact h1) (by push_cast; exact h2)]
    rfl
  unfold shown dequantOne
  rw [hq]
  simp

/-- **C109 (deviation).** A value lost to the missing flag makes the next copy coarse: of the grid `[0, 100, 509.6, 100, 100]`
in 8 bits the first copy reads as `[0, 100, -9999, 100, 100]`, and the copy of this copy has -15 where it had 0. -/
theorem C109_counterexample :
    ∃ (ref scale : ℚ) (w : List Int) (out : List ℚ) (ref2 scale2 : ℚ) (w2 : List Int) (out2 : List ℚ),
      packGrib lossyGrid (-9999) (8 : ℕ) = .ok (ref, scale, w) ∧
      readGrib w 8 5 ref scale (some (-9999)) = .ok (some out) ∧ out[0]? = some 0 ∧
      packGrib out (-9999) (8 : ℕ) = .ok (ref2, scale2, w2) ∧
      readGrib w2 8 5 ref2 scale2 (some (-9999)) = .ok (some out2) ∧ out2[0]? = some (-15 : ℚ) := by
  have hmin : qMin 0 [100, 2548 / 5, 100, 100] = 0 := by norm_num [qMin]
  have hmax : qMax 0 [100, 2548 / 5, 100, 100] = 2548 / 5 := by norm_num [qMax]
  obtain ⟨⟨ref, scale, w⟩, h⟩ := packGrib_total 0 [100, 2548 / 5, 100, 100] (-9999) 8 (by decide) (by decide) (by decide) (by
    rw [hmin, hmax, sub_zero, roundEven_at _ 510 (by norm_num) (by norm_num)]
    norm_num)
  obtain ⟨hre, hr⟩ := pack_read _ _ _ 8 (by decide) (by decide) (by decide) ref scale w h
  rw [hmin] at hre
  subst hre
  rw [hmin, hmax, sub_zero, lossy_exp] at hr
  have hi : imaxOf 8 = 255 := by decide
  have s0 : shown 8 (-9999) 0 (-1) 0 = 0 := shown_ref 8 (by decide) _ _ _
  have s1 : shown 8 (-9999) 0 (-1) 100 = 100 := by
    rw [shown_at 8 (-9999) 0 (-1) 100 50 (by norm_num) (by norm_num) (by norm_num) (by norm_num), hi]
    norm_num
  have s2 : shown 8 (-9999) 0 (-1) (2548 / 5) = -9999 := by
    rw [shown_at 8 (-9999) 0 (-1) (2548 / 5) 255 (by norm_num) (by norm_num) (by norm_num) (by norm_num), hi]
    norm_num
  simp only [List.map_cons, List.map_nil, s0, s1, s2] at hr
  have hmin2 : qMin 0 [100, -9999, 100, 100] = -9999 := by norm_num [qMin]
  have hmax2 : qMax 0 [100, -9999, 100, 100] = 100 := by norm_num [qMax]
  have hd : (100 - -9999 : ℚ) = 10099 := by norm_num
  obtain ⟨⟨ref2, scale2, w2⟩, h2⟩ := packGrib_total 0 [100, -9999, 100, 100] (-9999) 8 (by decide) (by decide) (by decide) (by
    rw [hmin2, hmax2, hd, roundEven_at _ 10099 (by norm_num) (by norm_num)]
    norm_num)
  obtain ⟨hre2, hr2⟩ := pack_read _ _ _ 8 (by decide) (by decide) (by decide) ref2 scale2 w2 h2
  rw [hmin2] at hre2
  subst hre2
  rw [hmin2, hmax2, hd, lossy_exp2] at hr2
  have t0 : shown 8 (-9999) (-9999) (-6) 0 = -15 := by
    rw [shown_at 8 (-9999) (-9999) (-6) 0 156 (by norm_num) (by norm_num) (by norm_num) (by norm_num), hi]
    norm_num
  refine ⟨0, scale, w, _, -9999, scale2, w2, _, h, hr, rfl, h2, hr2, ?_⟩
  simp [t0]

/-- A grid with a missing point, whose other values are rounded, that meets the hypotheses of `C109_resave_partial`. -/
example : ∃ (ref scale : ℚ) (w : List Int) (out : List ℚ),
    packGrib [0, 3, -1, 2, 1 / 3] (-1) (8 : ℕ) = .ok (ref, scale, w) ∧
      readGrib w 8 5 ref scale (some (-1)) = .ok (some out) ∧
      (∀ k : ℕ, out[k]? = some (-1) → ([0, 3, -1, 2, 1 / 3] : List ℚ)[k]? = some (-1)) ∧
      (∀ x ∈ out, ∀ y ∈ out, roundEven (x - y) ≤ 2147483647) := by
  have hmin : qMin 0 [3, -1, 2, 1 / 3] = -1 := by norm_num [qMin]
  have hmax : qMax 0 [3, -1, 2, 1 / 3] = 3 := by norm_num [qMax]
  have hd : (3 - -1 : ℚ) = 4 := by norm_num
  have h4 : roundEven (4 : ℚ) = 4 := by simpa using roundEven_int 4
  obtain ⟨⟨ref, scale, w⟩, h⟩ := packGrib_total 0 [3, -1, 2, 1 / 3] (-1) 8 (by decide) (by decide) (by decide) (by
    rw [hmin, hmax, hd, h4]; norm_num)
  have hex : scaleExp 8 4 = 5 := by
    have hi : imaxOf 8 = 255 := by decide
    unfold scaleExp
    simp only [hi]
    rw [dif_pos (by norm_num), dif_neg (by rw [h4]; norm_num)]
    have up : ∀ z : ℕ, roundEven ((4 : ℚ) * 2 ^ z) = 4 * 2 ^ z := by
      intro z
      exact_mod_cast roundEven_int (4 * 2 ^ z)
    unfold upLoop
    rw [dif_pos (by rw [up]; norm_num)]
    unfold upLoop
    rw [dif_pos (by rw [up]; norm_num)]
    unfold upLoop
    rw [dif_pos (by rw [up]; norm_num)]
    unfold upLoop
    rw [dif_pos (by rw [up]; norm_num)]
    unfold upLoop
    rw [dif_pos (by rw [up]; norm_num)]
    unfold upLoop
    rw [dif_neg (by rw [up]; norm_num)]
    rfl
  obtain ⟨hre, hr⟩ := pack_read _ _ _ 8 (by decide) (by decide) (by decide) ref scale w h
  rw [hmin] at hre
  subst hre
  rw [hmin, hmax, hd, hex] at hr
  have hi : imaxOf 8 = 255 := by decide
  have s0 : shown 8 (-1) (-1) 5 0 = 0 := by
    rw [shown_at 8 (-1) (-1) 5 0 32 (by norm_num) (by norm_num) (by norm_num) (by norm_num), hi]; norm_num
  have s1 : shown 8 (-1) (-1) 5 3 = 3 := by
    rw [shown_at 8 (-1) (-1) 5 3 128 (by norm_num) (by norm_num) (by norm_num) (by norm_num), hi]; norm_num
  have s2 : shown 8 (-1) (-1) 5 2 = 2 := by
    rw [shown_at 8 (-1) (-1) 5 2 96 (by norm_num) (by norm_num) (by norm_num) (by norm_num), hi]; norm_num
  have s3 : shown 8 (-1) (-1) 5 (1 / 3) = 11 / 32 := by
    rw [shown_at 8 (-1) (-1) 5 (1 / 3) 43 (by norm_num) (by norm_num) (by norm_num) (by norm_num), hi]; norm_num
  simp only [List.map_cons, List.map_nil, s0, s1, s2, s3, shown_missing] at hr
  refine ⟨-1, scale, w, _, h, hr, ?_, ?_⟩
  · intro k hk
    rcases k with _ | _ | _ | _ | _ | k <;> first | rfl | (norm_num at hk; done) | (simp at hk)
  · have hb : ∀ x ∈ ([0, 3, -1, 2, 11 / 32] : List ℚ), -1 ≤ x ∧ x ≤ 3 := by
      intro x hx
      simp at hx
      rcases hx with rfl | rfl | rfl | rfl | rfl <;> norm_num
    intro x hx y hy
    have h1 := hb x hx
    have h2 := hb y hy
    exact le_trans (roundEven_le_of_lt _ 4 (by push_cast; linarith)) (by norm_num)

end Gempak.Grib
