import Verif.Props.Calc

/-!
# C126: humidity and thickness
-/

namespace Gempak

/-! ## Lemmas -/

theorem vapour_eq {d m : ℝ} (h : d ≠ m) : vaporPressure realCalc d m = 6112 / 1000 * Real.exp (1767 / 100 * d / (d + 2435 / 10)) := if_neg h

theorem vapour_gt_zero {d m : ℝ} (h : d ≠ m) : 0 < vaporPressure realCalc d m := by
  rw [vapour_eq h]; positivity

/-- The mixing ratio, when it is not missing. -/
theorem mixing_eq {d p m : ℝ} (hm : m < 0) (hp : 0 < p) (h : mixingRatio realCalc d p m ≠ m) :
    d ≠ m ∧ mixCorr p * vaporPressure realCalc d m ≤ 5 / 10 * p ∧
      mixingRatio realCalc d p m = 62197 / 100000 * (mixCorr p * vaporPressure realCalc d m / (p - mixCorr p * vaporPressure realCalc d m)) * 1000 := by
  have hpm : p ≠ m := by linarith |> ne_of_gt
  unfold mixingRatio at h ⊢
  by_cases h1 : d = m ∨ p = m
  · rw [if_pos h1] at h; exact absurd rfl h
  rw [if_neg h1] at h ⊢
  have hd : d ≠ m := fun e => h1 (Or.inl e)
  have hv := vapour_gt_zero (d := d) (m := m) hd
  dsimp only at h ⊢
  rw [if_neg (by linarith |> ne_of_gt)] at h ⊢
  by_cases h2 : mixCorr p * vaporPressure realCalc d m > 5 / 10 * p
  · rw [if_pos h2] at h; exact absurd rfl h
  rw [if_neg h2] at h ⊢
  exact ⟨hd, not_lt.1 h2, rfl⟩

theorem mixCorr_pos {p : ℝ} (hp : 0 < p) : 0 < mixCorr p := by
  unfold mixCorr
  nlinarith

theorem ratio_lt {a b p q : ℝ} (ha : 0 ≤ a) (hq : 0 < q) (hp : a < p) (hb : b < q) (h : a * q < b * p) : a / (p - a) < b / (q - b) := by
  rw [div_lt_div_iff₀ (by linarith) (by linarith)]
  nlinarith

/-! ## Theorems -/

/-- **C126**: the vapour pressure rises with the dew point. -/
theorem C126_vapour (d d' m : ℝ) (hd : d ≠ m) (hd' : d' ≠ m) (h0 : -243.5 < d) (h : d < d') :
    vaporPressure realCalc d m < vaporPressure realCalc d' m := by
  rw [vapour_eq hd, vapour_eq hd']
  have : 1767 / 100 * d / (d + 2435 / 10) < 1767 / 100 * d' / (d' + 2435 / 10) := by
    rw [div_lt_div_iff₀ (by linarith) (by linarith)]
    nlinarith
  have := Real.exp_lt_exp.2 this
  linarith

/-- **C126**: moister air has the greater mixing ratio. -/
theorem C126_mixing (d d' p m : ℝ) (hm : m < 0) (hp : 0 < p) (h0 : -243.5 < d) (h : d < d') (h1 : mixingRatio realCalc d p m ≠ m)
    (h2 : mixingRatio realCalc d' p m ≠ m) : mixingRatio realCalc d p m < mixingRatio realCalc d' p m := by
  obtain ⟨a1, a2, a3⟩ := mixing_eq hm hp h1
  obtain ⟨b1, b2, b3⟩ := mixing_eq hm hp h2
  rw [a3, b3]
  have hv := C126_vapour d d' m a1 b1 h0 h
  have hc := mixCorr_pos hp
  have hlt : mixCorr p * vaporPressure realCalc d m < mixCorr p * vaporPressure realCalc d' m := mul_lt_mul_of_pos_left hv hc
  have hn : 0 ≤ mixCorr p * vaporPressure realCalc d m := (mul_pos hc (vapour_gt_zero a1)).le
  have := ratio_lt (p := p) (q := p) hn hp (by linarith) (by linarith) (mul_lt_mul_of_pos_right hlt hp)
  linarith

/-- **C126**: air of one dew point has the greater mixing ratio at the lower pressure. -/
theorem C126_mixing_pressure (d p p' m : ℝ) (hm : m < 0) (hp : 0 < p) (h : p < p') (h1 : mixingRatio realCalc d p m ≠ m)
    (h2 : mixingRatio realCalc d p' m ≠ m) : mixingRatio realCalc d p' m < mixingRatio realCalc d p m := by
  have hp' : 0 < p' := hp.trans h
  obtain ⟨a1, a2, a3⟩ := mixing_eq hm hp h1
  obtain ⟨b1, b2, b3⟩ := mixing_eq hm hp' h2
  rw [a3, b3]
  have hv := vapour_gt_zero a1
  have hc := mixCorr_pos hp
  have hc' := mixCorr_pos hp'
  have hx : mixCorr p' * p < mixCorr p * p' := by
    unfold mixCorr
    nlinarith
  have hlt : mixCorr p' * vaporPressure realCalc d m * p < mixCorr p * vaporPressure realCalc d m * p' := by
    have := mul_lt_mul_of_pos_right hx hv
    nlinarith
  have := ratio_lt (mul_pos hc' hv).le hp (by linarith) (by linarith) hlt
  linarith

/-- **C126**: the mixing ratio is between 0 and 621.97. -/
theorem C126_bound (d p m : ℝ) (hm : m < 0) (hp : 0 < p) (h : mixingRatio realCalc d p m ≠ m) :
    0 < mixingRatio realCalc d p m ∧ mixingRatio realCalc d p m ≤ 621.97 := by
  obtain ⟨a1, a2, a3⟩ := mixing_eq hm hp h
  rw [a3]
  have he := mul_pos (mixCorr_pos hp) (vapour_gt_zero a1)
  have hle : mixCorr p * vaporPressure realCalc d m / (p - mixCorr p * vaporPressure realCalc d m) ≤ 1 := by
    rw [div_le_one (by linarith)]; linarith
  have hpos : 0 < mixCorr p * vaporPressure realCalc d m / (p - mixCorr p * vaporPressure realCalc d m) := div_pos he (by linarith)
  constructor <;> nlinarith

/-- **C126** fails for the unit: the mixing ratio is documented in kilograms of vapour to a kilogram of dry air, of which there is less than one, but at
0 °C and 1000 hPa the number returned is above 3 (it is in grams). -/
theorem C126_unit : 3 < mixingRatio realCalc 0 1000 (-9999) ∧ mixingRatio realCalc 0 1000 (-9999) < 4 := by
  have hv : vaporPressure realCalc 0 (-9999) = 6112 / 1000 := by
    rw [vapour_eq (by norm_num)]; simp
  have h : mixingRatio realCalc 0 1000 (-9999) =
      62197 / 100000 * (mixCorr 1000 * (6112 / 1000) / (1000 - mixCorr 1000 * (6112 / 1000))) * 1000 := by
    unfold mixingRatio
    rw [if_neg (by norm_num)]
    dsimp only
    rw [hv, if_neg (by norm_num), if_neg (by unfold mixCorr; norm_num)]
  rw [h]
  unfold mixCorr
  constructor <;> norm_num

/-- The virtual temperature of air with some vapour. -/
theorem virtual_eq {t d p m : ℝ} (ht : t ≠ m) (hm : m < 0) (hp : 0 < p) (h : mixingRatio realCalc d p m ≠ m) :
    virtualTemperature realCalc t d p m =
      (t + 27315 / 100) * (1 + 1 / 1000 * mixingRatio realCalc d p m / (62197 / 100000)) / (1 + 1 / 1000 * mixingRatio realCalc d p m) := by
  have hd := (mixing_eq hm hp h).1
  have hpm : p ≠ m := by linarith |> ne_of_gt
  unfold virtualTemperature
  rw [if_neg (by rintro (h | h); exact ht h; exact hpm h), if_neg hd]
  dsimp only
  rw [if_neg h]

theorem factor_lt {a b : ℝ} (ha : 0 ≤ a) (h : a < b) :
    (1 + 1 / 1000 * a / (62197 / 100000)) / (1 + 1 / 1000 * a) < (1 + 1 / 1000 * b / (62197 / 100000)) / (1 + 1 / 1000 * b) := by
  rw [div_lt_div_iff₀ (by linarith) (by linarith)]
  nlinarith

/-- **C126**: of two kinds of air of one temperature and pressure the moister has the higher virtual temperature, and moist air a higher one than dry
air. -/
theorem C126_virtual (t d d' p m : ℝ) (hm : m < 0) (hp : 0 < p) (ht : -273.15 < t) (htm : t ≠ m) (h0 : -243.5 < d) (h : d < d')
    (h1 : mixingRatio realCalc d p m ≠ m) (h2 : mixingRatio realCalc d' p m ≠ m) :
    virtualTemperature realCalc t m p m < virtualTemperature realCalc t d p m ∧
      virtualTemperature realCalc t d p m < virtualTemperature realCalc t d' p m := by
  have hpm : p ≠ m := by linarith |> ne_of_gt
  have hr := C126_bound d p m hm hp h1
  have hlt := C126_mixing d d' p m hm hp h0 h h1 h2
  have hT : 0 < t + 27315 / 100 := by linarith
  constructor
  · have e0 : virtualTemperature realCalc t m p m = t + 27315 / 100 := by
      unfold virtualTemperature
      rw [if_neg (by rintro (h | h); exact htm h; exact hpm h), if_pos rfl]
    rw [e0, virtual_eq htm hm hp h1, mul_div_assoc]
    have := factor_lt (le_refl 0) hr.1
    norm_num at this
    have h3 : (1 : ℝ) < (1 + 1 / 1000 * mixingRatio realCalc d p m / (62197 / 100000)) / (1 + 1 / 1000 * mixingRatio realCalc d p m) := by
      have := factor_lt (le_refl 0) hr.1
      simpa using this
    nlinarith
  · rw [virtual_eq htm hm hp h1, virtual_eq htm hm hp h2, mul_div_assoc (t + 27315 / 100), mul_div_assoc (t + 27315 / 100)]
    exact mul_lt_mul_of_pos_left (factor_lt hr.1.le hlt) hT

/-- **C126**: of two kinds of air of one dew point and pressure the warmer has the higher virtual temperature. -/
theorem C126_warmer (t t' d p m : ℝ) (hm : m < 0) (hp : 0 < p) (htm : t ≠ m) (htm' : t' ≠ m) (h : t < t') :
    virtualTemperature realCalc t d p m < virtualTemperature realCalc t' d p m := by
  have hpm : p ≠ m := by linarith |> ne_of_gt
  by_cases hr : mixingRatio realCalc d p m = m
  · have dry : ∀ s, s ≠ m → virtualTemperature realCalc s d p m = s + 27315 / 100 := by
      intro s hs
      unfold virtualTemperature
      rw [if_neg (by rintro (h | h); exact hs h; exact hpm h)]
      split
      · rfl
      · dsimp only; rw [if_pos hr]
    rw [dry t htm, dry t' htm']
    linarith
  · have hb := C126_bound d p m hm hp hr
    rw [virtual_eq htm hm hp hr, virtual_eq htm' hm hp hr, mul_div_assoc (t + 27315 / 100), mul_div_assoc (t' + 27315 / 100)]
    have hb1 := hb.1
    refine mul_lt_mul_of_pos_right (by linarith) (div_pos ?_ (by linarith))
    have : 0 < 1 / 1000 * mixingRatio realCalc d p m / (62197 / 100000) := by positivity
    linarith

/-- The scale height is proportional to the mean virtual temperature. -/
theorem scale_eq {tb tt db dt pb pt m : ℝ} (hm : m < 0) (h1 : -273.15 ≤ tb) (h2 : -273.15 ≤ tt) (h3 : tb ≠ m) (h4 : tt ≠ m) (hpb : 0 < pb) (hpt : 0 < pt) :
    scaleHeight realCalc tb tt db dt pb pt m =
      rdOverG * ((virtualTemperature realCalc tb db pb m + virtualTemperature realCalc tt dt pt m) * (5 / 10)) ∧
    0 ≤ virtualTemperature realCalc tb db pb m ∧ 0 ≤ virtualTemperature realCalc tt dt pt m := by
  have low : ∀ t d p : ℝ, -273.15 ≤ t → t ≠ m → 0 < p → 0 ≤ virtualTemperature realCalc t d p m := by
    intro t d p ht htm hp
    have key := fun o ho => (C48_code m t p hm o ht htm ho hp.le).1
    by_cases hd : d = m
    · have := key none (by simp)
      simp only [Spec.marked] at this
      rw [hd]
      exact le_trans (by linarith) this
    · have := key (some d) (by simpa using hd)
      simp only [Spec.marked] at this
      exact le_trans (by linarith) this
  have l1 := low tb db pb h1 h3 hpb
  have l2 := low tt dt pt h2 h4 hpt
  refine ⟨?_, l1, l2⟩
  unfold scaleHeight
  rw [if_neg (by rintro (h | h | h | h) <;> [exact h3 h; exact h4 h; linarith; linarith])]
  dsimp only
  rw [if_neg (by rintro (h | h) <;> linarith)]

/-- **C126**: heights rise as pressure falls, and the layer is the thicker the warmer its air is. -/
theorem C126_thickness (z tb tt tb' tt' db dt pb pt m : ℝ) (hm : m < 0) (hz : z ≠ m) (hp : 0 < pt) (hpb : pt < pb) (hb : -273.15 < tb) (ht : -273.15 < tt)
    (hbm : tb ≠ m) (htm : tt ≠ m) (hb' : tb < tb') (ht' : tt < tt') (hbm' : tb' ≠ m) (htm' : tt' ≠ m) :
    z < moistHydrostaticHeight realCalc z pb pt (scaleHeight realCalc tb tt db dt pb pt m) m ∧
      moistHydrostaticHeight realCalc z pb pt (scaleHeight realCalc tb tt db dt pb pt m) m <
        moistHydrostaticHeight realCalc z pb pt (scaleHeight realCalc tb' tt' db dt pb pt m) m := by
  have hpb0 : 0 < pb := hp.trans hpb
  obtain ⟨e1, a1, a2⟩ := scale_eq (db := db) (dt := dt) hm hb.le ht.le hbm htm hpb0 hp
  obtain ⟨e2, b1, b2⟩ := scale_eq (tb := tb') (tt := tt') (db := db) (dt := dt) hm (by linarith) (by linarith) hbm' htm' hpb0 hp
  have w1 := C126_warmer tb tb' db pb m hm hpb0 hbm hbm' hb'
  have w2 := C126_warmer tt tt' dt pt m hm hp htm htm' ht'
  have hr : (0 : ℝ) < rdOverG := by unfold rdOverG; norm_num
  have hlog : 0 < Real.log (pb / pt) := Real.log_pos (by rw [lt_div_iff₀ hp]; linarith)
  have pos : 0 < virtualTemperature realCalc tb db pb m := by
    have key := fun o ho => (C48_code m tb pb hm o hb.le hbm ho hpb0.le).1
    by_cases hd : db = m
    · have := key none (by simp)
      simp only [Spec.marked] at this
      rw [hd]
      exact lt_of_lt_of_le (by linarith) this
    · have := key (some db) (by simpa using hd)
      simp only [Spec.marked] at this
      exact lt_of_lt_of_le (by linarith) this
  have s1 : 0 < scaleHeight realCalc tb tt db dt pb pt m := by
    rw [e1]; exact mul_pos hr (by linarith)
  have s2 : scaleHeight realCalc tb tt db dt pb pt m < scaleHeight realCalc tb' tt' db dt pb pt m := by
    rw [e1, e2]; exact mul_lt_mul_of_pos_left (by linarith) hr
  have hh : ∀ s, 0 < s → moistHydrostaticHeight realCalc z pb pt s m = z + s * Real.log (pb / pt) := by
    intro s hs
    unfold moistHydrostaticHeight
    rw [if_neg]
    · rfl
    · rintro ((h | h | h | h) | h | h)
      · exact hz h
      all_goals linarith
  rw [hh _ s1, hh _ (s1.trans s2)]
  constructor
  · have := mul_pos s1 hlog
    linarith
  · have := mul_lt_mul_of_pos_right s2 hlog
    linarith

/-- **C126**: a layer may be climbed in two steps. -/
theorem C126_layers (z p1 p2 p3 s m : ℝ) (hm : m < 0) (hz : z ≠ m) (hs : s ≠ m) (h1 : 0 < p1) (h2 : 0 < p2) (h3 : 0 < p3)
    (hy : moistHydrostaticHeight realCalc z p1 p2 s m ≠ m) :
    moistHydrostaticHeight realCalc (moistHydrostaticHeight realCalc z p1 p2 s m) p2 p3 s m = moistHydrostaticHeight realCalc z p1 p3 s m := by
  have hh : ∀ y a b : ℝ, y ≠ m → 0 < a → 0 < b → moistHydrostaticHeight realCalc y a b s m = y + s * Real.log (a / b) := by
    intro y a b hy ha hb
    unfold moistHydrostaticHeight
    rw [if_neg]
    · rfl
    · rintro ((h | h | h | h) | h | h)
      · exact hy h
      · linarith
      · linarith
      · exact hs h
      all_goals linarith
  rw [hh _ _ _ hy h2 h3, hh _ _ _ hz h1 h2, hh _ _ _ hz h1 h3, Real.log_div h1.ne' h2.ne', Real.log_div h2.ne' h3.ne', Real.log_div h1.ne' h3.ne']
  ring

/-! ## Examples -/

/-- Air at 0 °C and 1000 hPa holds vapour, and the hypotheses of the other theorems hold of it and of usual layers. -/
example : mixingRatio realCalc 0 1000 (-9999) ≠ -9999 ∧ (-243.5 : ℝ) < -10 ∧ (-10 : ℝ) < 0 ∧ (-273.15 : ℝ) < 15 ∧ (15 : ℝ) ≠ -9999 ∧ (500 : ℝ) < 1000 :=
  ⟨by linarith [C126_unit.1] |> ne_of_gt, by norm_num, by norm_num, by norm_num, by norm_num, by norm_num⟩

end Gempak
