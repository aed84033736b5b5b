import Verif.Props.CalcAbove

/-!
# C93: moist heights
-/

namespace Gempak

open Spec

/-- Scale height of the layer below level `k`: the mean of the virtual temperatures of levels `k - 1` and `k` times `Rd / g`. -/
noncomputable def Spec.layerScale (s : Snd ℝ) (m : ℝ) (k : Nat) : ℝ :=
  (scale (some (s.temp.getD (k - 1) m)) (some (s.temp.getD k m)) (opt m (s.dwpt.getD (k - 1) m)) (opt m (s.dwpt.getD k m))
    (some (s.pres.getD (k - 1) m)) (some (s.pres.getD k m))).getD 0

/-- Thickness of the `d` layers over level `a`. -/
noncomputable def Spec.thickness (s : Snd ℝ) (m : ℝ) (a : Nat) : Nat → ℝ
  | 0 => 0
  | d + 1 => thickness s m a d + layerScale s m (a + d + 1) * (Real.log (s.pres.getD (a + d) m) - Real.log (s.pres.getD (a + d + 1) m))

/-- What the heights from level `i` on have to be: measured ones stay; between two measured heights they divide the difference like the
thicknesses; above the last one they are thicknesses over it. -/
def Spec.MoistFilled (s : Snd ℝ) (Z : List ℝ) (m : ℝ) (n i : Nat) : Prop := ∀ a, i ≤ a → s.hght.getD a m ≠ m →
  Z.getD a m = s.hght.getD a m ∧
  (∀ b, a < b → s.hght.getD b m ≠ m → (∀ k, a < k → k < b → s.hght.getD k m = m) → ∀ k, a < k → k < b →
    Z.getD k m = s.hght.getD a m + (s.hght.getD b m - s.hght.getD a m) * (thickness s m a (k - a) / thickness s m a (b - a))) ∧
  ((∀ k, a < k → s.hght.getD k m = m) → ∀ k, a < k → k < n → Z.getD k m = s.hght.getD a m + thickness s m a (k - a))

/-- A sounding without missing temperatures on falling pressures. -/
structure MoistOk (s : Snd ℝ) (m : ℝ) (n : Nat) : Prop where
  size : s.Size n
  falling : Falling s.pres m n
  first : 0 < s.pres.getD 0 m
  temp : ∀ k, k < n → -273.15 < s.temp.getD k m
  mark : m < -273.15

theorem MoistOk.pres {s : Snd ℝ} {m : ℝ} {n k : Nat} (h : MoistOk s m n) (hk : k < n) : 0 < s.pres.getD k m := by
  cases k with
  | zero => exact h.first
  | succ k => exact (h.falling k (k + 1) (by omega) hk).1

theorem MoistOk.temp_ne {s : Snd ℝ} {m : ℝ} {n k : Nat} (h : MoistOk s m n) (hk : k < n) : s.temp.getD k m ≠ m := by
  have := h.temp k hk
  have := h.mark
  linarith

theorem layerScale_some {s : Snd ℝ} {m : ℝ} {n k : Nat} (h : MoistOk s m n) (hk : k < n) :
    scale (some (s.temp.getD (k - 1) m)) (some (s.temp.getD k m)) (opt m (s.dwpt.getD (k - 1) m)) (opt m (s.dwpt.getD k m))
      (some (s.pres.getD (k - 1) m)) (some (s.pres.getD k m)) = some (layerScale s m k) ∧ 0 < layerScale s m k := by
  obtain ⟨v, e1, v1⟩ := virtualTemp_some (s.temp.getD (k - 1) m) (s.pres.getD (k - 1) m) (opt m (s.dwpt.getD (k - 1) m)) (h.temp (k - 1) (by omega)).le
    (h.pres (by omega)).le
  obtain ⟨w, e2, w1⟩ := virtualTemp_some (s.temp.getD k m) (s.pres.getD k m) (opt m (s.dwpt.getD k m)) (h.temp k hk).le (h.pres hk).le
  have hsc : scale (some (s.temp.getD (k - 1) m)) (some (s.temp.getD k m)) (opt m (s.dwpt.getD (k - 1) m)) (opt m (s.dwpt.getD k m))
      (some (s.pres.getD (k - 1) m)) (some (s.pres.getD k m)) = some (287.04 / 9.80616 * ((v + w) / 2)) := by
    unfold scale
    rw [e1, e2]
  unfold layerScale
  rw [hsc]
  refine ⟨rfl, ?_⟩
  have := h.temp (k - 1) (by omega)
  have := h.temp k hk
  exact mul_pos (by norm_num) (by linarith)

/-- The code's scale height of a layer. -/
theorem scaleHeight_layer {s : Snd ℝ} {m : ℝ} {n k : Nat} (h : MoistOk s m n) (hk : k < n) :
    scaleHeight realCalc (s.temp.getD (k - 1) m) (s.temp.getD k m) (s.dwpt.getD (k - 1) m) (s.dwpt.getD k m) (s.pres.getD (k - 1) m)
      (s.pres.getD k m) m = layerScale s m k := by
  have hm : m < 0 := by have := h.mark; linarith
  have := (C47_scale m hm (some (s.temp.getD (k - 1) m)) (some (s.temp.getD k m)) (opt m (s.dwpt.getD (k - 1) m)) (opt m (s.dwpt.getD k m))
    (some (s.pres.getD (k - 1) m)) (some (s.pres.getD k m)) (fun x e => Option.some.inj e ▸ ⟨(h.temp _ (by omega)).le, h.temp_ne (by omega)⟩)
    (fun x e => Option.some.inj e ▸ ⟨(h.temp _ hk).le, h.temp_ne hk⟩) (opt_ne _ _) (opt_ne _ _)
    (fun x e => Option.some.inj e ▸ (h.pres (by omega)).le) (fun x e => Option.some.inj e ▸ (h.pres hk).le)).1
  rw [marked_opt, marked_opt, (layerScale_some h hk).1] at this
  exact this

theorem thickness_pos {s : Snd ℝ} {m : ℝ} {n a : Nat} (h : MoistOk s m n) (d : Nat) (hd : a + d < n) :
    0 ≤ thickness s m a d ∧ (0 < d → 0 < thickness s m a d) := by
  induction d with
  | zero => exact ⟨le_refl _, fun h => by omega⟩
  | succ d ih =>
    have f := h.falling (a + d) (a + d + 1) (by omega) (by omega)
    have l := Real.log_lt_log f.1 f.2.2
    have := mul_pos (layerScale_some h (k := a + d + 1) (by omega)).2 (sub_pos.2 l)
    have h0 := (ih (by omega)).1
    have e : thickness s m a (d + 1) = thickness s m a d + layerScale s m (a + d + 1) * (Real.log (s.pres.getD (a + d) m) - Real.log (s.pres.getD (a + d + 1) m)) := rfl
    rw [e]
    exact ⟨by linarith, fun _ => by linarith⟩

theorem thickness_step {s : Snd ℝ} {m : ℝ} {a k : Nat} (h : a < k) :
    thickness s m a (k - a) = thickness s m a (k - 1 - a) + layerScale s m k * (Real.log (s.pres.getD (k - 1) m) - Real.log (s.pres.getD k m)) := by
  obtain ⟨d, rfl⟩ : ∃ d, k = a + d + 1 := ⟨k - a - 1, by omega⟩
  rw [show a + d + 1 - a = d + 1 by omega, show a + d + 1 - 1 = a + d by omega, show a + d - a = d by omega]
  rfl

/-- The code's height over a layer. -/
theorem moistHeight_layer {s : Snd ℝ} {m : ℝ} {n k : Nat} (h : MoistOk s m n) (hk0 : 0 < k) (hk : k < n) (z sc : ℝ) (hz : z ≠ m) (hsc : 0 < sc) :
    moistHydrostaticHeight realCalc z (s.pres.getD (k - 1) m) (s.pres.getD k m) sc m =
      z + sc * (Real.log (s.pres.getD (k - 1) m) - Real.log (s.pres.getD k m)) := by
  have p1 := h.pres (k := k - 1) (by omega)
  have p2 := h.pres hk
  have := h.mark
  unfold moistHydrostaticHeight
  rw [if_neg]
  · show z + sc * Real.log _ = _
    rw [Real.log_div p1.ne' p2.ne']
  · rintro ((e | e | e | e) | e | e)
    · exact hz e
    all_goals linarith

theorem moistScan_thick {s : Snd ℝ} {m : ℝ} {n a : Nat} (h : MoistOk s m n) (ha : m < s.hght.getD a m) (N j : Nat) (hl : List ℝ) (hj : j + N = n)
    (haj : a < j) (hh : hl.length = n) (hlow : ∀ i, a < i → i < j → hl.getD i m = layerScale s m i) :
    ∃ r, moistScan realCalc s m (s.pres.getD a m) (s.temp.getD a m) N j
        ⟨s.pres.getD (j - 1) m, s.hght.getD a m + thickness s m a (j - 1 - a), s.temp.getD (j - 1) m, s.dwpt.getD (j - 1) m⟩ hl = .ok r ∧
      r.hlist.length = n ∧
      ((r.found = none ∧ r.jlev = n ∧ (∀ k, j ≤ k → k < n → s.hght.getD k m = m) ∧ ∀ i, a < i → i < n → r.hlist.getD i m = layerScale s m i) ∨
        (r.found = some (r.jlev, s.hght.getD r.jlev m, s.hght.getD a m + thickness s m a (r.jlev - a)) ∧ j ≤ r.jlev ∧ r.jlev < n ∧
          s.hght.getD r.jlev m ≠ m ∧ (∀ k, j ≤ k → k < r.jlev → s.hght.getD k m = m) ∧
          ∀ i, a < i → i ≤ r.jlev → r.hlist.getD i m = layerScale s m i)) := by
  induction N generalizing j hl with
  | zero => exact ⟨⟨j, none, hl⟩, rfl, hh, Or.inl ⟨rfl, by dsimp only; omega, fun k h1 h2 => by omega, fun i h1 h2 => hlow i h1 (by omega)⟩⟩
  | succ N ih =>
    have hs := h.size
    rw [moistScan, idx_ok (by rw [hs.pres]; omega) m, ok_bind, idx_ok (by rw [hs.temp]; omega) m, ok_bind, idx_ok (by rw [hs.dwpt]; omega) m, ok_bind,
      idx_ok (by rw [hs.hght]; omega) m, ok_bind]
    have hza : m < s.hght.getD a m + thickness s m a (j - 1 - a) := by
      have := (thickness_pos h (a := a) (j - 1 - a) (by omega)).1
      linarith
    have hml : ∀ t, moistLayer realCalc m (s.pres.getD a m) (s.temp.getD a m) (s.pres.getD j m) (s.temp.getD j m) t
        ⟨s.pres.getD (j - 1) m, s.hght.getD a m + thickness s m a (j - 1 - a), s.temp.getD (j - 1) m, s.dwpt.getD (j - 1) m⟩ =
        (scaleHeight realCalc (s.temp.getD (j - 1) m) (s.temp.getD j m) (s.dwpt.getD (j - 1) m) t (s.pres.getD (j - 1) m) (s.pres.getD j m) m,
          moistHydrostaticHeight realCalc (s.hght.getD a m + thickness s m a (j - 1 - a)) (s.pres.getD (j - 1) m) (s.pres.getD j m)
          (scaleHeight realCalc (s.temp.getD (j - 1) m) (s.temp.getD j m) (s.dwpt.getD (j - 1) m) t (s.pres.getD (j - 1) m) (s.pres.getD j m) m) m) := by
      intro t
      unfold moistLayer
      rw [if_pos]
      have := h.mark
      exact ⟨by have := h.pres (k := a) (by omega); linarith, h.temp_ne (by omega), by have := h.pres (k := j) (by omega); linarith, h.temp_ne (by omega)⟩
    dsimp only
    rw [hml, scaleHeight_layer h (by omega), moistHeight_layer h (by omega) (by omega) _ _ hza.ne' (layerScale_some h (by omega)).2]
    have e : s.hght.getD a m + thickness s m a (j - 1 - a) + layerScale s m j * (Real.log (s.pres.getD (j - 1) m) - Real.log (s.pres.getD j m)) =
        s.hght.getD a m + thickness s m a (j - a) := by rw [thickness_step haj]; ring
    rw [e]
    dsimp only
    have hzj : m < s.hght.getD a m + thickness s m a (j - a) := by
      have := (thickness_pos h (a := a) (j - a) (by omega)).1
      linarith
    rw [if_pos hzj.ne', put_ok (by omega), ok_bind]
    have hlow' : ∀ i, a < i → i < j + 1 → (hl.set j (layerScale s m j)).getD i m = layerScale s m i := by
      intro i h1 h2
      rw [getD_set _ _ _ _ _ (by omega)]
      by_cases ei : i = j
      · rw [if_pos ei, ei]
      · rw [if_neg ei]; exact hlow i h1 (by omega)
    by_cases hz : s.hght.getD j m = m
    · rw [if_neg (fun h => h.1 hz)]
      obtain ⟨r, e1, e2, e3⟩ := ih (j + 1) (hl.set j (layerScale s m j)) (by omega) (by omega) (by simpa using hh) hlow'
      rw [show j + 1 - 1 = j by omega] at e1
      refine ⟨r, e1, e2, ?_⟩
      have ext : ∀ {t}, (∀ k, j + 1 ≤ k → k < t → s.hght.getD k m = m) → ∀ k, j ≤ k → k < t → s.hght.getD k m = m := by
        intro t h k h1 h2
        by_cases e : k = j
        · rw [e]; exact hz
        · exact h k (by omega) h2
      rcases e3 with ⟨a1, a2, a3, a4⟩ | ⟨a1, a2, a3, a4, a5, a6⟩
      · exact Or.inl ⟨a1, a2, ext a3, a4⟩
      · exact Or.inr ⟨a1, by omega, a3, a4, ext a5, a6⟩
    · rw [if_pos ⟨hz, h.temp_ne (by omega)⟩]
      refine ⟨_, rfl, by simpa using hh, Or.inr ⟨rfl, le_refl _, by dsimp only; omega, hz, fun k h1 h2 => by dsimp only at h2; omega, fun i h1 h2 => ?_⟩⟩
      exact hlow' i h1 (by dsimp only at h2; omega)

theorem scaleList_get (f m : ℝ) (n N h : Nat) (hl : List ℝ) (hh : hl.length = n) (hi : h + N ≤ n) :
    ∃ hl', scaleList f N h hl = .ok hl' ∧ hl'.length = n ∧
      ∀ i, hl'.getD i m = if h ≤ i ∧ i < h + N then hl.getD i m * f else hl.getD i m := by
  induction N generalizing h hl with
  | zero => exact ⟨hl, rfl, hh, fun i => by rw [if_neg (by omega)]⟩
  | succ N ih =>
    rw [scaleList, idx_ok (by omega) m, ok_bind, put_ok (by omega), ok_bind]
    obtain ⟨hl', e, g1, g2⟩ := ih (h + 1) (hl.set h (hl.getD h m * f)) (by simpa using hh) (by omega)
    refine ⟨hl', e, g1, fun i => ?_⟩
    rw [g2 i, getD_set _ _ _ _ _ (by omega)]
    by_cases ei : i = h
    · subst ei
      rw [if_neg (by omega), if_pos rfl, if_pos ⟨le_refl _, by omega⟩]
    · rw [if_neg ei]
      by_cases hc : h + 1 ≤ i ∧ i < h + 1 + N
      · rw [if_pos hc, if_pos ⟨by omega, by omega⟩]
      · rw [if_neg hc, if_neg (by omega)]

theorem storeHeights_thick {s0 : Snd ℝ} {m f z : ℝ} {n a : Nat} (h : MoistOk s0 m n) (hf : 0 < f) (hz : m < z) (hl : List ℝ) (hh : hl.length = n)
    (N i : Nat) (s : Snd ℝ) (hs : s.Size n) (ho : s = { s0 with hght := s.hght }) (hai : a < i) (hi : i + N ≤ n)
    (hhl : ∀ k, i ≤ k → k < i + N → hl.getD k m = layerScale s0 m k * f) :
    ∃ s', storeHeights realCalc m hl N i (z + f * thickness s0 m a (i - 1 - a)) (s0.pres.getD (i - 1) m) s = .ok s' ∧ s'.Size n ∧
      s' = { s with hght := s'.hght } ∧ (∀ k, k < i ∨ i + N ≤ k → s'.hght.getD k m = s.hght.getD k m) ∧
      ∀ k, i ≤ k → k < i + N → s'.hght.getD k m = z + f * thickness s0 m a (k - a) := by
  induction N generalizing i s with
  | zero => exact ⟨s, rfl, hs, rfl, fun _ _ => rfl, fun k h1 h2 => by omega⟩
  | succ N ih =>
    rw [storeHeights, idx_ok (by rw [hs.pres]; omega) m, ok_bind, idx_ok (by omega) m, ok_bind]
    have hp : s.pres = s0.pres := by rw [ho]
    rw [hp, hhl i (le_refl _) (by omega)]
    have hza : m < z + f * thickness s0 m a (i - 1 - a) := by
      have := mul_nonneg hf.le (thickness_pos h (a := a) (i - 1 - a) (by omega)).1
      linarith
    rw [moistHeight_layer h (by omega) (by omega) _ _ hza.ne' (mul_pos (layerScale_some h (by omega)).2 hf)]
    have e : z + f * thickness s0 m a (i - 1 - a) + layerScale s0 m i * f * (Real.log (s0.pres.getD (i - 1) m) - Real.log (s0.pres.getD i m)) =
        z + f * thickness s0 m a (i - a) := by rw [thickness_step hai]; ring
    dsimp only
    rw [e, put_ok (by rw [hs.hght]; omega), ok_bind]
    obtain ⟨s', e', g1, g2, g3, g4⟩ := ih (i + 1) { s with hght := s.hght.set i (z + f * thickness s0 m a (i - a)) }
      ⟨hs.pres, by simpa using hs.hght, hs.temp, hs.dwpt, hs.drct, hs.sped⟩ (by rw [ho]) (by omega) (by omega)
      (fun k h1 h2 => hhl k (by omega) (by omega))
    rw [show i + 1 - 1 = i by omega, hp] at e'
    refine ⟨s', e', g1, by rw [g2, ho], fun k hk => ?_, fun k h1 h2 => ?_⟩
    · rw [g3 k (by omega)]
      exact set_same hs.hght (by omega) (by omega)
    · by_cases ek : k = i
      · rw [ek, g3 i (by omega)]
        show (s.hght.set i _).getD i m = _
        rw [getD_set _ _ _ _ _ (by rw [hs.hght]; omega), if_pos rfl]
      · exact g4 k (by omega) (by omega)

/-- One round of the main loop. -/
theorem moistStep_thick {s0 s : Snd ℝ} {m : ℝ} {n a : Nat} (hm : m = -9999) (h : MoistOk s0 m n)
    (hinc : ∀ a b, a < b → s0.hght.getD a m ≠ m → s0.hght.getD b m ≠ m → s0.hght.getD a m < s0.hght.getD b m)
    (hs : s.Size n) (ho : s = { s0 with hght := s.hght }) (han : a < n) (hza : m < s0.hght.getD a m)
    (hsame : ∀ k, a ≤ k → s.hght.getD k m = s0.hght.getD k m) (hl : List ℝ) (hh : hl.length = n) :
    ∃ s' hl' k, moistStep realCalc m s hl a = .ok (s', hl', k) ∧ s'.Size n ∧ s' = { s0 with hght := s'.hght } ∧ hl'.length = n ∧
      (∀ j, j ≤ a → s'.hght.getD j m = s.hght.getD j m) ∧
      ((k = none ∧ (∀ j, a < j → s0.hght.getD j m = m) ∧ ∀ j, a < j → j < n → s'.hght.getD j m = s0.hght.getD a m + thickness s0 m a (j - a)) ∨
        ∃ b, k = some b ∧ a < b ∧ b < n ∧ s0.hght.getD b m ≠ m ∧ (∀ j, a < j → j < b → s0.hght.getD j m = m) ∧
          (∀ j, b ≤ j → s'.hght.getD j m = s0.hght.getD j m) ∧
          ∀ j, a < j → j < b →
            s'.hght.getD j m = s0.hght.getD a m + (s0.hght.getD b m - s0.hght.getD a m) * (thickness s0 m a (j - a) / thickness s0 m a (b - a))) := by
  have hp : s.pres = s0.pres := by rw [ho]
  have ht : s.temp = s0.temp := by rw [ho]
  have hd : s.dwpt = s0.dwpt := by rw [ho]
  have hok : MoistOk s m n := ⟨hs, by rw [hp]; exact h.falling, by rw [hp]; exact h.first, by rw [ht]; exact h.temp, h.mark⟩
  have hls : ∀ k, layerScale s m k = layerScale s0 m k := fun k => by unfold layerScale; rw [hp, ht, hd]
  have hth : ∀ d, thickness s m a d = thickness s0 m a d := by
    intro d
    induction d with
    | zero => rfl
    | succ d ih => unfold thickness; rw [ih, hls, hp]
  have hsa := hsame a (le_refl _)
  unfold moistStep
  rw [idx_ok (by rw [hs.pres]; omega) m, ok_bind, idx_ok (by rw [hs.temp]; omega) m, ok_bind, idx_ok (by rw [hs.dwpt]; omega) m, ok_bind,
    idx_ok (by rw [hs.hght]; omega) m, ok_bind, hs.pres]
  obtain ⟨r, e1, e2, e3⟩ := moistScan_thick hok (a := a) (by rw [hsa]; exact hza) (n - (a + 1)) (a + 1) hl (by omega) (by omega) hh
    (fun i h1 h2 => by omega)
  have e0 : s.hght.getD a m + thickness s m a (a + 1 - 1 - a) = s.hght.getD a m := by
    rw [show a + 1 - 1 - a = 0 by omega]; show _ + (0 : ℝ) = _; ring
  rw [e0, show a + 1 - 1 = a by omega] at e1
  rw [e1, ok_bind]
  have hst := fun (f : ℝ) (hf : 0 < f) => storeHeights_thick (z := s0.hght.getD a m) (a := a) h hf hza
  have z0 : ∀ f : ℝ, s0.hght.getD a m + f * thickness s0 m a (a + 1 - 1 - a) = s0.hght.getD a m := by
    intro f
    rw [show a + 1 - 1 - a = 0 by omega]; show _ + f * (0 : ℝ) = _; ring
  rcases e3 with ⟨a1, a2, a3, a4⟩ | ⟨a1, a2, a3, a4, a5, a6⟩
  · have hr : rescale (s.hght.getD a m) a r = .ok r.hlist := by unfold rescale; rw [a1]
    rw [hr, ok_bind]
    obtain ⟨s', g1, g2, g3, g4, g5⟩ := hst 1 one_pos r.hlist e2 (r.jlev - (a + 1)) (a + 1) s hs ho (by omega) (by omega)
      (fun k h1 h2 => by rw [a4 k (by omega) (by omega), hls, mul_one])
    rw [z0, show a + 1 - 1 = a by omega] at g1
    rw [hsa, hp, ← hm, g1, ok_bind, a1]
    refine ⟨s', r.hlist, none, rfl, g2, by rw [g3, ho], e2, fun j hj => g4 j (by omega), Or.inl ⟨rfl, fun j hj => ?_, fun j h1 h2 => ?_⟩⟩
    · rw [← hsame j (by omega)]
      by_cases hjn : j < n
      · exact a3 j (by omega) hjn
      · exact getD_ge _ _ _ (by rw [hs.hght]; omega)
    · rw [g5 j (by omega) (by omega), one_mul]
  · generalize hb : r.jlev = b at *
    have hzb : s0.hght.getD b m ≠ m := by rw [← hsame b (by omega)]; exact a4
    have hlt := hinc a b (by omega) hza.ne' hzb
    have hτ := (thickness_pos h (a := a) (b - a) (by omega)).2 (by omega)
    have hf : 0 < (s0.hght.getD b m - s0.hght.getD a m) / thickness s0 m a (b - a) := div_pos (by linarith) hτ
    have hr : rescale (s.hght.getD a m) a r =
        scaleList ((s0.hght.getD b m - s0.hght.getD a m) / thickness s0 m a (b - a)) (b - a) (a + 1) r.hlist := by
      unfold rescale
      rw [a1]
      dsimp only
      rw [hsa, hsame b (by omega), hth]
      congr 2
      ring
    obtain ⟨hl', f1, f2, f3⟩ := scaleList_get ((s0.hght.getD b m - s0.hght.getD a m) / thickness s0 m a (b - a)) m n (b - a) (a + 1) r.hlist e2 (by omega)
    rw [hr, f1, ok_bind]
    obtain ⟨s', g1, g2, g3, g4, g5⟩ := hst _ hf hl' f2 (b - (a + 1)) (a + 1) s hs ho (by omega) (by omega)
      (fun k h1 h2 => by rw [f3 k, if_pos ⟨by omega, by omega⟩, a6 k (by omega) (by omega), hls])
    rw [z0, show a + 1 - 1 = a by omega] at g1
    rw [hsa, hp, ← hm, g1, ok_bind, a1]
    refine ⟨s', hl', some b, rfl, g2, by rw [g3, ho], f2, fun j hj => g4 j (by omega),
      Or.inr ⟨b, rfl, by omega, a3, hzb, fun j h1 h2 => ?_, fun j hj => ?_, fun j h1 h2 => ?_⟩⟩
    · rw [← hsame j (by omega)]; exact a5 j (by omega) h2
    · rw [g4 j (by omega)]; exact hsame j (by omega)
    · rw [g5 j (by omega) (by omega)]
      ring

theorem moistLoop_thick {s0 : Snd ℝ} {m : ℝ} {n : Nat} (hm : m = -9999) (h : MoistOk s0 m n)
    (hinc : ∀ a b, a < b → s0.hght.getD a m ≠ m → s0.hght.getD b m ≠ m → s0.hght.getD a m < s0.hght.getD b m)
    (hz : ∀ k, s0.hght.getD k m ≠ m → m < s0.hght.getD k m) (fuel a : Nat) (s : Snd ℝ) (hl : List ℝ)
    (hs : s.Size n) (ho : s = { s0 with hght := s.hght }) (han : a < n) (hza : s0.hght.getD a m ≠ m)
    (hsame : ∀ k, a ≤ k → s.hght.getD k m = s0.hght.getD k m) (hh : hl.length = n) (hf : n ≤ a + fuel) :
    ∃ s', moistLoop realCalc m fuel a hl s = .ok s' ∧ (∀ j, j ≤ a → s'.hght.getD j m = s.hght.getD j m) ∧ MoistFilled s0 s'.hght m n a := by
  induction fuel generalizing a s hl with
  | zero => omega
  | succ fuel ih =>
    obtain ⟨s1, hl1, k, e, h1, h2, h3, h4, h5⟩ := moistStep_thick hm h hinc hs ho han (hz a hza) hsame hl hh
    rw [moistLoop, e, ok_bind]
    rcases h5 with ⟨rfl, q1, q2⟩ | ⟨b, rfl, q1, q2, q3, q4, q5, q6⟩
    · refine ⟨s1, rfl, h4, fun a' ha' hv => ?_⟩
      have ea : a' = a := by
        by_contra hne
        exact hv (q1 a' (by omega))
      subst ea
      refine ⟨by rw [h4 a' (le_refl _)]; exact hsame a' (le_refl _), fun b hb hbv => absurd (q1 b hb) hbv, fun _ => q2⟩
    · obtain ⟨s', e', g1, g2⟩ := ih b s1 hl1 h1 h2 q2 q3 q5 h3 (by omega)
      refine ⟨s', e', fun j hj => by rw [g1 j (by omega), h4 j hj], fun a' ha' hv => ?_⟩
      by_cases hab : b ≤ a'
      · exact g2 a' hab hv
      · have ea : a' = a := by
          by_contra hne
          exact hv (q4 a' (by omega) (by omega))
        subst ea
        refine ⟨by rw [g1 a' (by omega), h4 a' (le_refl _)]; exact hsame a' (le_refl _), fun b' hb' hbv' hbm k k1 k2 => ?_, fun hall => ?_⟩
        · have eb : b' = b := by
            rcases Nat.lt_trichotomy b' b with e | e | e
            · exact absurd (q4 b' hb' e) hbv'
            · exact e
            · exact absurd (hbm b q1 e) q3
          subst eb
          rw [g1 k (by omega)]
          exact q6 k k1 k2
        · exact absurd (hall b q1) q3

theorem firstFull_first {s : Snd ℝ} {m : ℝ} {n : Nat} (h : MoistOk s m n) (N i : Nat) (hi : i + N = n) :
    (firstFull s m N i = .ok none ∧ ∀ k, i ≤ k → s.hght.getD k m = m) ∨
      ∃ k, firstFull s m N i = .ok (some k) ∧ i ≤ k ∧ k < n ∧ s.hght.getD k m ≠ m ∧ ∀ j, i ≤ j → j < k → s.hght.getD j m = m := by
  induction N generalizing i with
  | zero => exact Or.inl ⟨rfl, fun k hk => getD_ge _ _ _ (by rw [h.size.hght]; omega)⟩
  | succ N ih =>
    have hs := h.size
    have hpm : s.pres.getD i m ≠ m := by have := h.pres (k := i) (by omega); have := h.mark; linarith
    rw [firstFull, idx_ok (by rw [hs.pres]; omega) m, ok_bind, if_pos hpm, idx_ok (by rw [hs.temp]; omega) m, ok_bind,
      if_pos (h.temp_ne (by omega)), idx_ok (by rw [hs.hght]; omega) m, ok_bind]
    by_cases hz : s.hght.getD i m = m
    · rw [if_neg (by simpa using hz)]
      rcases ih (i + 1) (by omega) with ⟨e, q⟩ | ⟨k, e, q1, q2, q3, q4⟩
      · refine Or.inl ⟨e, fun k hk => ?_⟩
        by_cases ek : k = i
        · rw [ek]; exact hz
        · exact q k (by omega)
      · refine Or.inr ⟨k, e, by omega, q2, q3, fun j h1 h2 => ?_⟩
        by_cases ej : j = i
        · rw [ej]; exact hz
        · exact q4 j (by omega) h2
    · rw [if_pos hz]
      exact Or.inr ⟨i, rfl, le_refl _, by omega, hz, fun j h1 h2 => by omega⟩

/-- C93: in a sounding without missing temperatures, on positive falling pressures and with increasing heights, the moist heights are the
measured ones where there are any; between two of them they divide their difference in proportion to the hydrostatic thickness; above
the highest they add the thickness; below the lowest there are none.  For the usual missing mark. -/
theorem C93_moist (m : ℝ) (hm : m = -9999) (n : Nat) (s : Snd ℝ) (hs : s.Size n) (hp : Falling s.pres m n) (hp0 : 0 < s.pres.getD 0 m)
    (ht : ∀ k, k < n → -273.15 < s.temp.getD k m)
    (hinc : ∀ a b, a < b → s.hght.getD a m ≠ m → s.hght.getD b m ≠ m → s.hght.getD a m < s.hght.getD b m)
    (hz : ∀ k, s.hght.getD k m ≠ m → m < s.hght.getD k m) (fuel : Nat) (hf : n ≤ fuel) :
    ∃ s', interpMoistHeight realCalc m fuel s = .ok s' ∧ MoistFilled s s'.hght m n 0 ∧
      ∀ j, (∀ k, k ≤ j → s.hght.getD k m = m) → s'.hght.getD j m = m := by
  have h : MoistOk s m n := ⟨hs, hp, hp0, ht, by rw [hm]; norm_num⟩
  unfold interpMoistHeight
  rw [hs.pres]
  rcases firstFull_first h n 0 (by omega) with ⟨e, q⟩ | ⟨k, e, q1, q2, q3, q4⟩
  · rw [e, ok_bind]
    exact ⟨s, rfl, fun a _ hv => absurd (q a (by omega)) hv, fun j hj => hj j (le_refl _)⟩
  · rw [e, ok_bind]
    obtain ⟨s', e', g1, g2⟩ := moistLoop_thick hm h hinc hz fuel k s (List.replicate n (-9999)) hs rfl q2 q3 (fun _ _ => rfl) (by simp) (by omega)
    refine ⟨s', e', fun a _ hv => g2 a ?_ hv, fun j hj => ?_⟩
    · by_contra hc
      exact hv (q4 a (by omega) (by omega))
    · have : j < k := by
        by_contra hc
        exact q3 (hj k (by omega))
      rw [g1 j (by omega)]
      exact hj j (le_refl _)

/-- C93: heights between two measured ones lie between them and increase upwards. -/
theorem C93_between (m : ℝ) (n : Nat) (s : Snd ℝ) (hs : s.Size n) (hp : Falling s.pres m n) (hp0 : 0 < s.pres.getD 0 m) (hm : m < -273.15)
    (ht : ∀ k, k < n → -273.15 < s.temp.getD k m) (a k l b : Nat) (hak : a ≤ k) (hkl : k < l) (hlb : l ≤ b) (hb : b < n) :
    0 ≤ thickness s m a (k - a) / thickness s m a (b - a) ∧
      thickness s m a (k - a) / thickness s m a (b - a) < thickness s m a (l - a) / thickness s m a (b - a) ∧
      thickness s m a (l - a) / thickness s m a (b - a) ≤ 1 := by
  have h : MoistOk s m n := ⟨hs, hp, hp0, ht, hm⟩
  have mono : ∀ d e, d < e → a + e < n → thickness s m a d < thickness s m a e := by
    intro d e hde
    induction e with
    | zero => omega
    | succ e ih =>
      intro hn
      have f := h.falling (a + e) (a + e + 1) (by omega) (by omega)
      have l := Real.log_lt_log f.1 f.2.2
      have := mul_pos (layerScale_some h (k := a + e + 1) (by omega)).2 (sub_pos.2 l)
      have e1 : thickness s m a (e + 1) = thickness s m a e + layerScale s m (a + e + 1) * (Real.log (s.pres.getD (a + e) m) - Real.log (s.pres.getD (a + e + 1) m)) := rfl
      rw [e1]
      rcases Nat.lt_or_ge d e with h1 | h1
      · have := ih h1 (by omega); linarith
      · rw [show d = e by omega]; linarith
  have hτ := (thickness_pos h (a := a) (b - a) (by omega)).2 (by omega)
  refine ⟨div_nonneg (thickness_pos h (k - a) (by omega)).1 hτ.le, ?_, ?_⟩
  · exact div_lt_div_of_pos_right (mono _ _ (by omega) (by omega)) hτ
  · rw [div_le_one hτ]
    rcases Nat.lt_or_ge l b with h1 | h1
    · exact (mono _ _ (by omega) (by omega)).le
    · rw [show l = b by omega]

/-- Heights at the ends and a level between them. -/
noncomputable def moistSample : Snd ℝ :=
  ⟨[1000, 900, 800], [100, -9999, 2000], [20, 10, 5], [10, -9999, 0], [0, 0, 0], [0, 0, 0]⟩

example : moistSample.Size 3 ∧ Falling moistSample.pres (-9999) 3 ∧ (∀ k, k < 3 → -273.15 < moistSample.temp.getD k (-9999)) ∧
    (∀ a b, a < b → moistSample.hght.getD a (-9999) ≠ -9999 → moistSample.hght.getD b (-9999) ≠ -9999 →
      moistSample.hght.getD a (-9999) < moistSample.hght.getD b (-9999)) := by
  refine ⟨⟨rfl, rfl, rfl, rfl, rfl, rfl⟩, ?_, ?_, ?_⟩
  · intro i j h1 h2
    have : i < 3 := by omega
    interval_cases j <;> interval_cases i <;> simp [moistSample] <;> norm_num
  · intro k hk
    interval_cases k <;> simp [moistSample] <;> norm_num
  · intro a b hab h1 h2
    have hb : b < 3 := getD_ne_lt h2
    interval_cases b <;> interval_cases a <;> simp [moistSample] at h1 h2 ⊢ <;> norm_num at *

end Gempak
