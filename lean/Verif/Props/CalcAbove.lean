import Verif.Props.CalcHeight

/-!
# C92: heights above the highest measured one
-/

namespace Gempak

open Spec

/-- A stored value as one that may be missing. -/
noncomputable def Spec.opt (m x : ℝ) : Option ℝ := if x = m then none else some x

theorem marked_opt (m x : ℝ) : marked m (opt m x) = x := by
  unfold opt marked
  split
  · rename_i h; rw [h]; rfl
  · rfl

theorem opt_ne (m x : ℝ) : opt m x ≠ some m := by
  unfold opt
  split
  · simp
  · rename_i h; intro e; exact h (Option.some.inj e)

/-- The height that the hydrostatic equation gives for level `j` over level `b`; none where the temperature of one is missing. -/
noncomputable def Spec.hydrostatic (s : Snd ℝ) (Z : List ℝ) (m : ℝ) (b j : Nat) : Option ℝ :=
  height (opt m (Z.getD b m)) (some (s.pres.getD b m)) (some (s.pres.getD j m))
    (scale (opt m (s.temp.getD b m)) (opt m (s.temp.getD j m)) (opt m (s.dwpt.getD b m)) (opt m (s.dwpt.getD j m)) (some (s.pres.getD b m))
      (some (s.pres.getD j m)))

theorem virtualTemp_some (t p : ℝ) (d : Option ℝ) (ht : -273.15 ≤ t) (hp : 0 ≤ p) : ∃ v, virtualTemp (some t) d (some p) = some v ∧ t + 273.15 ≤ v := by
  have : ∃ v, virtualTemp (some t) d (some p) = some v := by
    cases hx : mixing d (some p) with
    | none => exact ⟨_, virtualTemp_dry hx⟩
    | some r => exact ⟨_, virtualTemp_moist hx⟩
  obtain ⟨v, hv⟩ := this
  exact ⟨v, hv, C48_virtual t d (some p) ht (fun x h => Option.some.inj h ▸ hp) v hv⟩

/-- The code over one layer. -/
theorem layer_height (m : ℝ) (hm : m < 0) (s : Snd ℝ) (Z : List ℝ) (b j : Nat) (hz : Z.getD b m ≠ m) (hpb : 0 ≤ s.pres.getD b m)
    (hpt : 0 ≤ s.pres.getD j m) (htb : s.temp.getD b m ≠ m → -273.15 ≤ s.temp.getD b m) (htt : s.temp.getD j m ≠ m → -273.15 ≤ s.temp.getD j m) :
    moistHydrostaticHeight realCalc (Z.getD b m) (s.pres.getD b m) (s.pres.getD j m)
      (scaleHeight realCalc (s.temp.getD b m) (s.temp.getD j m) (s.dwpt.getD b m) (s.dwpt.getD j m) (s.pres.getD b m) (s.pres.getD j m) m) m =
    marked m (hydrostatic s Z m b j) := by
  have ho : ∀ x, (x ≠ m → -273.15 ≤ x) → ∀ y, opt m x = some y → -273.15 ≤ y ∧ y ≠ m := by
    intro x hx y hy
    unfold opt at hy
    split at hy
    · cases hy
    · rename_i h; rw [← Option.some.inj hy]; exact ⟨hx h, h⟩
  have hs := (C47_scale m hm (opt m (s.temp.getD b m)) (opt m (s.temp.getD j m)) (opt m (s.dwpt.getD b m)) (opt m (s.dwpt.getD j m))
    (some (s.pres.getD b m)) (some (s.pres.getD j m)) (ho _ htb) (ho _ htt) (opt_ne _ _) (opt_ne _ _) (fun x h => Option.some.inj h ▸ hpb)
    (fun x h => Option.some.inj h ▸ hpt)).1
  rw [marked_opt, marked_opt, marked_opt, marked_opt] at hs
  have hs' : scaleHeight realCalc (s.temp.getD b m) (s.temp.getD j m) (s.dwpt.getD b m) (s.dwpt.getD j m) (s.pres.getD b m) (s.pres.getD j m) m = _ := hs
  rw [hs']
  have hne : scale (opt m (s.temp.getD b m)) (opt m (s.temp.getD j m)) (opt m (s.dwpt.getD b m)) (opt m (s.dwpt.getD j m)) (some (s.pres.getD b m))
      (some (s.pres.getD j m)) ≠ some m := by
    by_cases h1 : s.temp.getD b m = m
    · rw [show opt m (s.temp.getD b m) = none by unfold opt; rw [if_pos h1]]
      simp [scale, virtualTemp]
    · by_cases h2 : s.temp.getD j m = m
      · rw [show opt m (s.temp.getD j m) = none by unfold opt; rw [if_pos h2]]
        unfold scale
        cases virtualTemp (opt m (s.temp.getD b m)) (opt m (s.dwpt.getD b m)) (some (s.pres.getD b m)) <;> simp [virtualTemp]
      · rw [show opt m (s.temp.getD b m) = some _ by unfold opt; rw [if_neg h1], show opt m (s.temp.getD j m) = some _ by unfold opt; rw [if_neg h2]]
        obtain ⟨v, e1, v1⟩ := virtualTemp_some (s.temp.getD b m) (s.pres.getD b m) (opt m (s.dwpt.getD b m)) (htb h1) hpb
        obtain ⟨w, e2, w1⟩ := virtualTemp_some (s.temp.getD j m) (s.pres.getD j m) (opt m (s.dwpt.getD j m)) (htt h2) hpt
        unfold scale
        rw [e1, e2]
        intro e
        have e := Option.some.inj e
        have := htb h1
        have := htt h2
        have h3 : 0 ≤ 287.04 / 9.80616 * ((v + w) / 2) := by
          apply mul_nonneg (by norm_num)
          linarith
        rw [e] at h3
        linarith
  have := C47_height m (opt m (Z.getD b m)) (some (s.pres.getD b m)) (some (s.pres.getD j m)) _ (opt_ne _ _)
    (fun e => by have := Option.some.inj e; linarith) (fun e => by have := Option.some.inj e; linarith) hne
  rw [marked_opt] at this
  exact this

/-- Over a layer with temperatures the height increases. -/
theorem hydrostatic_gt {s : Snd ℝ} {Z : List ℝ} {m : ℝ} {b j : Nat} (hz : Z.getD b m ≠ m) (hp : 0 < s.pres.getD j m)
    (hlt : s.pres.getD j m < s.pres.getD b m) (h1 : s.temp.getD b m ≠ m) (h2 : s.temp.getD j m ≠ m) (htb : -273.15 ≤ s.temp.getD b m)
    (htt : -273.15 < s.temp.getD j m) : ∃ z, hydrostatic s Z m b j = some z ∧ Z.getD b m < z := by
  obtain ⟨v, e1, v1⟩ := virtualTemp_some (s.temp.getD b m) (s.pres.getD b m) (opt m (s.dwpt.getD b m)) htb (hp.trans hlt).le
  obtain ⟨w, e2, w1⟩ := virtualTemp_some (s.temp.getD j m) (s.pres.getD j m) (opt m (s.dwpt.getD j m)) htt.le hp.le
  unfold hydrostatic
  rw [show opt m (s.temp.getD b m) = some _ by unfold opt; rw [if_neg h1], show opt m (s.temp.getD j m) = some _ by unfold opt; rw [if_neg h2],
    show opt m (Z.getD b m) = some _ by unfold opt; rw [if_neg hz]]
  unfold scale height
  rw [e1, e2]
  dsimp only
  rw [if_pos ⟨hp.trans hlt, hp⟩]
  refine ⟨_, rfl, ?_⟩
  have l := Real.log_lt_log hp hlt
  have : 0 < 287.04 / 9.80616 * ((v + w) / 2) := mul_pos (by norm_num) (by linarith)
  have := mul_pos this (sub_pos.2 l)
  linarith

theorem hydrostatic_none {s : Snd ℝ} {Z : List ℝ} {m : ℝ} {b j : Nat} (h : s.temp.getD j m = m) : hydrostatic s Z m b j = none := by
  unfold hydrostatic
  rw [show opt m (s.temp.getD j m) = none by unfold opt; rw [if_pos h]]
  unfold scale
  cases virtualTemp (opt m (s.temp.getD b m)) (opt m (s.dwpt.getD b m)) (some (s.pres.getD b m)) <;>
    cases opt m (Z.getD b m) <;> simp [virtualTemp, height]

/-- What the levels from `i` on get. -/
def AboveFilled (s : Snd ℝ) (Z : List ℝ) (m : ℝ) (n β i : Nat) : Prop := ∀ j, i ≤ j → j < n → ∀ b, β ≤ b → b < j → s.temp.getD b m ≠ m →
  (∀ k, b < k → k < j → s.temp.getD k m = m) →
    Z.getD j m = marked m (hydrostatic s Z m b j) ∧ (s.temp.getD j m ≠ m → Z.getD b m < Z.getD j m)

theorem extendLoop_above (m : ℝ) (hm : m < 0) (n N i β : Nat) (s : Snd ℝ) (hs : s.Size n) (hi : i + N = n) (hβ : β < i) (hp : Falling s.pres m n)
    (ht : ∀ k, s.temp.getD k m ≠ m → -273.15 < s.temp.getD k m) (hT : s.temp.getD β m ≠ m) (hz : m < s.hght.getD β m)
    (hgap : ∀ k, β < k → k < i → s.temp.getD k m = m) (hrest : ∀ k, i ≤ k → s.hght.getD k m = m) :
    ∃ s', extendLoop realCalc m m N i s ⟨s.pres.getD β m, s.hght.getD β m, s.temp.getD β m, s.dwpt.getD β m⟩ = .ok s' ∧ s'.Size n ∧
      s' = { s with hght := s'.hght } ∧ (∀ k, k < i → s'.hght.getD k m = s.hght.getD k m) ∧ AboveFilled s s'.hght m n β i := by
  induction N generalizing i β s with
  | zero => exact ⟨s, rfl, hs, rfl, fun _ _ => rfl, fun j h1 h2 => by omega⟩
  | succ N ih =>
    have f := hp β i hβ (by omega)
    rw [extendLoop, idx_ok (by rw [hs.hght]; omega) m, ok_bind]
    unfold extendStep
    rw [if_pos (hrest i (le_refl _)), idx_ok (by rw [hs.temp]; omega) m, ok_bind, idx_ok (by rw [hs.dwpt]; omega) m, ok_bind,
      idx_ok (by rw [hs.pres]; omega) m, ok_bind]
    dsimp only
    rw [layer_height m hm s s.hght β i hz.ne' f.2.1.le f.1.le (fun h => (ht β h).le) (fun h => (ht i h).le), put_ok (by rw [hs.hght]; omega), ok_bind,
      ok_bind]
    generalize hv : marked m (hydrostatic s s.hght m β i) = v
    have hs1 : ({ s with hght := s.hght.set i v } : Snd ℝ).Size n :=
      ⟨hs.pres, by simpa using hs.hght, hs.temp, hs.dwpt, hs.drct, hs.sped⟩
    have hsame : ∀ k, k ≠ i → (s.hght.set i v).getD k m = s.hght.getD k m := fun k hk => set_same hs.hght (by omega) hk
    have hat : (s.hght.set i v).getD i m = v := by rw [getD_set _ _ _ _ _ (by rw [hs.hght]; omega), if_pos rfl]
    rw [idx_ok (by rw [hs1.temp]; omega) m, ok_bind, idx_ok (by rw [hs1.hght]; omega) m, ok_bind]
    dsimp only
    rw [hat]
    have hyd : ∀ Z : List ℝ, Z.getD β m = s.hght.getD β m → marked m (hydrostatic s Z m β i) = v := by
      intro Z hZ
      rw [← hv]
      unfold hydrostatic
      rw [hZ]
    by_cases hTi : s.temp.getD i m = m
    · -- no temperature: the layer stays
      rw [if_neg (fun h => h.1 hTi)]
      obtain ⟨s', e, g1, g2, g3, g4⟩ := ih (i + 1) β { s with hght := s.hght.set i v } hs1 (by omega) (by omega) hp ht hT
        (by show m < (s.hght.set i v).getD β m; rw [hsame β (by omega)]; exact hz)
        (fun k k1 k2 => by
          by_cases ek : k = i
          · rw [ek]; exact hTi
          · exact hgap k k1 (by omega))
        (fun k hk => by show (s.hght.set i v).getD k m = m; rw [hsame k (by omega)]; exact hrest k (by omega))
      have e' : extendLoop realCalc m m N (i + 1) { s with hght := s.hght.set i v } ⟨s.pres.getD β m, s.hght.getD β m, s.temp.getD β m, s.dwpt.getD β m⟩ =
          .ok s' := by
        rw [← e]
        show _ = extendLoop _ _ _ _ _ _ ⟨s.pres.getD β m, (s.hght.set i v).getD β m, s.temp.getD β m, s.dwpt.getD β m⟩
        rw [hsame β (by omega)]
      refine ⟨s', e', g1, g2, fun k hk => ?_, ?_⟩
      · rw [g3 k (by omega)]; exact hsame k (by omega)
      · intro j hj hjn b hb hbj hbT hbk
        by_cases ej : j = i
        · subst ej
          have eb : b = β := by
            by_contra hne
            exact hbT (hgap b (by omega) hbj)
          subst eb
          have hZb : s'.hght.getD b m = s.hght.getD b m := (g3 b (by omega)).trans (hsame b (by omega))
          refine ⟨?_, fun h => absurd hTi h⟩
          rw [hyd _ hZb, g3 j (by omega)]
          exact hat
        · exact g4 j (by omega) hjn b hb hbj hbT hbk
    · -- the layer moves up
      obtain ⟨z, hz1, hz2⟩ := hydrostatic_gt (Z := s.hght) hz.ne' f.1 f.2.2 hT hTi (ht β hT).le (ht i hTi)
      have hvz : v = z := by rw [← hv, hz1]; rfl
      have hvm : m < v := by rw [hvz]; linarith
      rw [if_pos ⟨hTi, hvm.ne'⟩, idx_ok (by rw [hs1.pres]; omega) m, ok_bind, idx_ok (by rw [hs1.dwpt]; omega) m, ok_bind]
      obtain ⟨s', e, g1, g2, g3, g4⟩ := ih (i + 1) i { s with hght := s.hght.set i v } hs1 (by omega) (by omega) hp ht hTi
        (by show m < (s.hght.set i v).getD i m; rw [hat]; exact hvm) (fun k k1 k2 => by omega)
        (fun k hk => by show (s.hght.set i v).getD k m = m; rw [hsame k (by omega)]; exact hrest k (by omega))
      have e' : extendLoop realCalc m m N (i + 1) { s with hght := s.hght.set i v } ⟨s.pres.getD i m, v, s.temp.getD i m, s.dwpt.getD i m⟩ =
          .ok s' := by
        rw [← e]
        show _ = extendLoop _ _ _ _ _ _ ⟨s.pres.getD i m, (s.hght.set i v).getD i m, s.temp.getD i m, s.dwpt.getD i m⟩
        rw [hat]
      refine ⟨s', e', g1, g2, fun k hk => ?_, ?_⟩
      · rw [g3 k (by omega)]; exact hsame k (by omega)
      · intro j hj hjn b hb hbj hbT hbk
        have hZi : s'.hght.getD i m = v := (g3 i (by omega)).trans hat
        by_cases ej : j = i
        · subst ej
          have eb : b = β := by
            by_contra hne
            exact hbT (hgap b (by omega) hbj)
          subst eb
          have hZb : s'.hght.getD b m = s.hght.getD b m := (g3 b (by omega)).trans (hsame b (by omega))
          refine ⟨by rw [hyd _ hZb, hZi], fun _ => ?_⟩
          rw [hZb, hZi, hvz]
          exact hz2
        · have hib : i ≤ b := by
            by_contra hc
            exact hTi (hbk i (by omega) (by omega))
          exact g4 j (by omega) hjn b hib hbj hbT hbk

/-- C92: above the highest level `t` with a height the heights are those of the hydrostatic equation: each level with a temperature gets the
height over the next lower level with a temperature, which increases; levels without temperature stay without height.  For the usual
missing mark, positive falling pressures of at most 2000 hPa, temperatures above absolute zero and a temperature at level `t`. -/
theorem C92_above (m : ℝ) (hm : m = -9999) (n : Nat) (s : Snd ℝ) (hs : s.Size n) (hp : Falling s.pres m n) (hp0 : 0 < s.pres.getD 0 m)
    (hp2 : ∀ k, s.pres.getD k m ≤ 2000) (ht : ∀ k, s.temp.getD k m ≠ m → -273.15 < s.temp.getD k m) (t : Nat)
    (hz : m < s.hght.getD t m) (hT : s.temp.getD t m ≠ m) (hlast : ∀ k, t < k → s.hght.getD k m = m) :
    ∃ s', (∀ fuel, n ≤ fuel → interpLogpHeight realCalc m fuel s = .ok s') ∧ s'.hght.getD t m = s.hght.getD t m ∧
      ∀ j, t < j → j < n → ∀ b, t ≤ b → b < j → s.temp.getD b m ≠ m → (∀ k, b < k → k < j → s.temp.getD k m = m) →
        s'.hght.getD j m = marked m (hydrostatic s s'.hght m b j) ∧ (s.temp.getD j m ≠ m → s'.hght.getD b m < s'.hght.getD j m) ∧
          (s.temp.getD j m = m → s'.hght.getD j m = m) := by
  have hm0 : m < 0 := by rw [hm]; norm_num
  have htn : t < n := by have := getD_ne_lt hz.ne'; rwa [hs.hght] at this
  have hne : ∀ k, k < n → s.pres.getD k m ≠ m := by
    intro k hk
    have : 0 < s.pres.getD k m := by
      cases k with
      | zero => exact hp0
      | succ k => exact (hp k (k + 1) (by omega) hk).1
    linarith
  have main : ∃ s', interpLogpHeight realCalc m n s = .ok s' ∧ s'.hght.getD t m = s.hght.getD t m ∧ AboveFilled s s'.hght m n t (t + 1) := by
    unfold interpLogpHeight
    rw [if_neg (by rw [hs.hght]; omega)]
    dsimp only
    rw [hs.hght]
    rcases lastHeight_spec s.hght m n (n - 1) hs.hght (by omega) with ⟨t', e, t0, tn, ht', hrest⟩ | ⟨e, hnone⟩
    · have et : t' = t := by
        rcases Nat.lt_trichotomy t' t with h | h | h
        · exact absurd (hrest t h (by omega)) hz.ne'
        · exact h
        · exact absurd (hlast t' h) ht'
      subst et
      rw [e]
      dsimp only
      obtain ⟨s1, v1, e1, inv⟩ := heightLoop_inv realCalc s m n n t' hp hp2 hne (le_refl _) htn ht' t' 0 (by omega) s ⟨none, none⟩
        ⟨hs, rfl, fun j hj => by omega, fun _ _ => rfl, Or.inl ⟨rfl, fun k hk => by omega⟩⟩
      rw [e1, ok_bind]
      have q1 : s1.pres = s.pres := by rw [inv.others]
      have q2 : s1.temp = s.temp := by rw [inv.others]
      have q3 : s1.dwpt = s.dwpt := by rw [inv.others]
      by_cases htop : t' < n - 1
      · rw [if_pos htop, idx_ok (by rw [inv.size.pres]; omega) m, ok_bind, idx_ok (by rw [inv.size.hght]; omega) m, ok_bind,
          idx_ok (by rw [inv.size.temp]; omega) m, ok_bind, idx_ok (by rw [inv.size.dwpt]; omega) m, ok_bind]
        obtain ⟨s', e', g1, g2, g3, g4⟩ := extendLoop_above m hm0 n (n - (t' + 1)) (t' + 1) t' s1 inv.size (by omega) (by omega) (by rw [q1]; exact hp)
          (by rw [q2]; exact ht) (by rw [q2]; exact hT) (by rw [inv.rest t' (le_refl _)]; exact hz) (fun k k1 k2 => by omega)
          (fun k hk => by rw [inv.rest k (by omega)]; exact hlast k (by omega))
        refine ⟨s', by rw [← hm]; exact e', by rw [g3 t' (by omega), inv.rest t' (le_refl _)], ?_⟩
        have hh : ∀ b j, hydrostatic s s'.hght m b j = hydrostatic s1 s'.hght m b j := by
          intro b j; unfold hydrostatic; rw [q1, q2, q3]
        intro j h1 h2 b b1 b2 b3 b4
        rw [hh]
        have := g4 j h1 h2 b b1 b2 (by rw [q2]; exact b3) (by rw [q2]; exact b4)
        rw [q2] at this
        exact this
      · rw [if_neg htop]
        exact ⟨s1, rfl, inv.rest t' (le_refl _), fun j h1 h2 => by omega⟩
    · have et : t = 0 := by
        by_contra hc
        exact hz.ne' (hnone t (by omega) (by omega))
      subst et
      rw [e]
      dsimp only
      obtain ⟨N, rfl⟩ : ∃ N, n = N + 1 := ⟨n - 1, by omega⟩
      rw [extendLoop, idx_ok (by rw [hs.hght]; omega) m, ok_bind]
      unfold extendStep
      rw [if_neg hz.ne', ok_bind, idx_ok (by rw [hs.temp]; omega) m, ok_bind, idx_ok (by rw [hs.hght]; omega) m, ok_bind, if_pos ⟨hT, hz.ne'⟩,
        idx_ok (by rw [hs.pres]; omega) m, ok_bind, idx_ok (by rw [hs.dwpt]; omega) m, ok_bind]
      obtain ⟨s', e', g1, g2, g3, g4⟩ := extendLoop_above m hm0 (N + 1) N 1 0 s hs (by omega) (by omega) hp ht hT hz (fun k k1 k2 => by omega)
        (fun k hk => hlast k (by omega))
      exact ⟨s', by rw [← hm]; exact e', g3 0 (by omega), g4⟩
  obtain ⟨s', e, h1, h2⟩ := main
  refine ⟨s', fun fuel hf => logpHeight_mono realCalc m n fuel s s' hf e, h1, fun j hj hjn b b1 b2 b3 b4 => ?_⟩
  obtain ⟨q1, q2⟩ := h2 j hj hjn b b1 b2 b3 b4
  exact ⟨q1, q2, fun h => by rw [q1, hydrostatic_none h]; rfl⟩

/-- Heights at two levels, temperatures at all but one. -/
noncomputable def aboveSample : Snd ℝ :=
  ⟨[1000, 900, 800, 700], [100, 1000, -9999, -9999], [20, 10, -9999, 0], [10, 5, -9999, -9999], [0, 0, 0, 0], [0, 0, 0, 0]⟩

example : aboveSample.Size 4 ∧ Falling aboveSample.pres (-9999) 4 ∧ -9999 < aboveSample.hght.getD 1 (-9999) ∧
    aboveSample.temp.getD 1 (-9999) ≠ -9999 ∧ aboveSample.temp.getD 2 (-9999) = -9999 ∧ aboveSample.temp.getD 3 (-9999) ≠ -9999 := by
  refine ⟨⟨rfl, rfl, rfl, rfl, rfl, rfl⟩, ?_, ?_, ?_, ?_, ?_⟩
  · intro i j h1 h2
    have : i < 4 := by omega
    interval_cases j <;> interval_cases i <;> simp [aboveSample] <;> norm_num
  all_goals (simp [aboveSample] <;> norm_num)

end Gempak
