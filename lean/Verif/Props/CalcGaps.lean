import Mathlib.Tactic.LinearCombination
import Verif.Props.CalcFill

/-!
# C91: gaps in dew points and winds
-/

namespace Gempak

open Spec

section
variable {α : Type} [Field α] [LinearOrder α] [FloorRing α]

/-- The filling of level `i` changes no other level. -/
theorem filled_other (r : Recipe) (s : Snd α) (m x : α) (n i k j : Nat) (hs : s.Size n) (hi : i < n) (hj : j ≠ i) :
    SameLevel m s (filled r s m x i k) j := by
  cases r
  · exact ⟨rfl, rfl, set_same hs.temp hi hj, set_same hs.dwpt hi hj, rfl, rfl⟩
  · exact ⟨rfl, rfl, rfl, rfl, set_same hs.drct hi hj, set_same hs.sped hi hj⟩
  · exact ⟨rfl, rfl, rfl, set_same hs.dwpt hi hj, rfl, rfl⟩

theorem fillMissing_other {c : Calc α} {r : Recipe} {m : α} {n i k j : Nat} {s s' : Snd α} (hs : s.Size n) (hi : i < n) (hk : k < n)
    (hj : j ≠ i) (h : fillMissing c r s m i k = .ok s') : SameLevel m s s' j := by
  by_cases hk0 : k = 0
  · subst hk0
    obtain rfl := Except.ok.inj h
    exact SameLevel.refl m s j
  · rw [fillMissing_eq c r s m n i k hs hi hk hk0] at h
    split at h
    · obtain rfl := Except.ok.inj h
      exact filled_other r s m _ n i k j hs hi hj
    · cases h

omit [FloorRing α] in
theorem crossTest_lt {r : Recipe} {s : Snd α} {n i b k : Nat} (hs : s.Size n) (hi : i < n) (hb : b < n) (h : crossTest r s i b = .ok k) : k < n := by
  rcases crossTest_spec r s n i b hs hi hb with e | ⟨_, e⟩
  · rw [e] at h; obtain rfl := Except.ok.inj h; exact hb
  · rw [e] at h; obtain rfl := Except.ok.inj h; omega

/-- Levels below the present one are not touched any more. -/
theorem missingLoop_below {c : Calc α} {r : Recipe} {m : α} {n N i ia : Nat} {s s' : Snd α} (hs : s.Size n) (hi0 : i ≠ 0) (hi : i + N + 1 ≤ n)
    (hia : AboveInv r s m n i ia) (h : missingLoop c r m n N i ia s = .ok s') (j : Nat) (hj : j < i) : SameLevel m s s' j := by
  induction N generalizing i ia s with
  | zero => obtain rfl := Except.ok.inj h; exact SameLevel.refl m s j
  | succ N ih =>
    rw [missingLoop, idx_ok (by rw [column_length hs]; omega) m, ok_bind] at h
    split at h
    · rename_i hv
      rcases levelAbove_spec hs (by omega) hia with ⟨b, e, h1, h2, h3, h4⟩ | ⟨e, h1⟩
      · rw [e, ok_bind] at h
        dsimp only at h
        obtain ⟨k, hk, h⟩ := run_inv h
        obtain ⟨s1, hf, h⟩ := run_inv h
        have hkn := crossTest_lt hs (by omega) h2 hk
        have o := fillMissing_other hs (by omega) hkn (by omega : j ≠ i) hf
        have ks := fillMissing_keeps hs hi0 (by omega) hv hf
        rw [if_pos rfl] at h
        refine o.trans (ih ks.size (by omega) (by omega) ⟨hkn, fun hlt => ?_⟩ h (by omega))
        rcases crossTest_spec r s n i b hs (by omega) h2 with e | ⟨_, e⟩
        · rw [e] at hk
          obtain rfl := Except.ok.inj hk
          refine ⟨?_, fun j' a b' => ?_⟩
          · rw [(fillMissing_other hs (by omega) hkn (by omega) hf).column r]; exact h3
          · rw [(fillMissing_other hs (by omega) hkn (by omega) hf).column r]; exact h4 j' (by omega) b'
        · rw [e] at hk
          obtain rfl := Except.ok.inj hk
          omega
      · rw [e, ok_bind] at h
        dsimp only at h
        obtain ⟨k, hk, h⟩ := run_inv h
        obtain ⟨s1, hf, h⟩ := run_inv h
        have hkn := crossTest_lt hs (by omega) (by omega) hk
        rw [if_neg (by simp)] at h
        obtain rfl := Except.ok.inj h
        exact fillMissing_other hs (by omega) hkn (by omega : j ≠ i) hf
    · rename_i hv
      exact ih hs (by omega) (by omega) ⟨hia.1, fun h => ⟨(hia.2 (by omega)).1, fun j h1 h2 => (hia.2 (by omega)).2 j (by omega) h2⟩⟩ h (by omega)

/-- The gap over level `j` from the level below to `b` crosses 100 hPa and is one of dew points. -/
def Crosses (r : Recipe) (P : List α) (m : α) (j b : Nat) : Prop := r = .dwpt ∧ 100 < P.getD (j - 1) m ∧ P.getD b m < 100

omit [FloorRing α] in
theorem crossTest_cross {r : Recipe} {s : Snd α} {m : α} {n i b : Nat} (hs : s.Size n) (hi : i < n) (hb : b < n) (hb0 : b ≠ 0) :
    (Crosses r s.pres m i b → crossTest r s i b = .ok 0) ∧ (¬ Crosses r s.pres m i b → crossTest r s i b = .ok b) := by
  unfold crossTest Crosses
  rw [idx_ok (by rw [hs.pres]; omega) m, idx_ok (by rw [hs.pres]; omega) m]
  constructor
  · rintro ⟨h1, h2, h3⟩
    rw [if_pos ⟨h1, hb0⟩, ok_bind, if_pos h2, ok_bind, if_pos h3]
  · intro h
    by_cases h1 : r = .dwpt
    · rw [if_pos ⟨h1, hb0⟩, ok_bind]
      by_cases h2 : 100 < s.pres.getD (i - 1) m
      · rw [if_pos h2, ok_bind, if_neg (fun h3 => h ⟨h1, h2, h3⟩)]
      · rw [if_neg h2]
    · rw [if_neg (fun h => h1 h.1)]

/-- Fraction of the way from level `j - 1` to `b` at level `j`. -/
def gapWeight (c : Calc α) (P : List α) (m : α) (j b : Nat) : α :=
  c.log (P.getD j m / P.getD (j - 1) m) / c.log (P.getD b m / P.getD (j - 1) m)

/-- What the loop does to a level with a missing value: nothing when no value is above or the gap crosses 100 hPa; otherwise the level
gets what is interpolated between the level below and the next level with a value. -/
theorem missingLoop_rec {c : Calc α} {r : Recipe} {m : α} {n N i ia : Nat} {s s' : Snd α} (hs : s.Size n) (hi0 : i ≠ 0) (hi : i + N + 1 = n)
    (hia : AboveInv r s m n i ia) (h : missingLoop c r m n N i ia s = .ok s') (j : Nat) (hij : i ≤ j) (hj : j + 1 < n)
    (hm : (r.column s).getD j m = m) :
    ((∀ k, j < k → (r.column s).getD k m = m) → SameLevel m s s' j) ∧
    ∀ b, j < b → (r.column s).getD b m ≠ m → (∀ k, j < k → k < b → (r.column s).getD k m = m) →
      (Crosses r s.pres m j b → SameLevel m s s' j) ∧
      (¬ Crosses r s.pres m j b → SameLevel m (filled r s' m (gapWeight c s.pres m j b) j b) s' j) := by
  induction N generalizing i ia s with
  | zero => omega
  | succ N ih =>
    have h0 := h
    rw [missingLoop, idx_ok (by rw [column_length hs]; omega) m, ok_bind] at h
    split at h
    · rename_i hv
      rcases levelAbove_spec hs (by omega) hia with ⟨b0, e, h1, h2, h3, h4⟩ | ⟨e, h1⟩
      · rw [e, ok_bind] at h
        dsimp only at h
        obtain ⟨k, hk, h⟩ := run_inv h
        obtain ⟨s1, hf, h⟩ := run_inv h
        have hkn := crossTest_lt hs (by omega) h2 hk
        have ks := fillMissing_keeps hs hi0 (by omega) hv hf
        have oth : ∀ j, j ≠ i → SameLevel m s s1 j := fun j hj => fillMissing_other hs (by omega) hkn hj hf
        rw [if_pos rfl] at h
        have hab : AboveInv r s1 m n (i + 1) k := by
          refine ⟨hkn, fun hlt => ?_⟩
          rcases crossTest_spec r s n i b0 hs (by omega) h2 with e | ⟨_, e⟩
          · rw [e] at hk
            obtain rfl := Except.ok.inj hk
            refine ⟨?_, fun j' a b' => ?_⟩
            · rw [(oth _ (by omega)).column r]; exact h3
            · rw [(oth _ (by omega)).column r]; exact h4 j' (by omega) b'
          · rw [e] at hk
            obtain rfl := Except.ok.inj hk
            omega
        by_cases ej : j = i
        · subst ej
          have below := missingLoop_below ks.size (by omega) (by omega) hab h
          refine ⟨fun hall => absurd (hall b0 h1) h3, fun b hb hbv hbm => ?_⟩
          have eb : b = b0 := by
            rcases Nat.lt_trichotomy b b0 with e | e | e
            · exact absurd (h4 b hb e) hbv
            · exact e
            · exact absurd (hbm b0 h1 e) h3
          subst eb
          obtain ⟨c1, c2⟩ := crossTest_cross (r := r) (m := m) hs (by omega : j < n) h2 (by omega)
          refine ⟨fun hc => ?_, fun hc => ?_⟩
          · rw [c1 hc] at hk
            obtain rfl := Except.ok.inj hk
            obtain rfl := Except.ok.inj hf
            exact below j (by omega)
          · rw [c2 hc] at hk
            obtain rfl := Except.ok.inj hk
            rw [fillMissing_eq c r s m n j b hs (by omega) h2 (by omega)] at hf
            split at hf
            · obtain rfl := Except.ok.inj hf
              have kj := below j (by omega)
              have kp := (oth (j - 1) (by omega)).trans (below (j - 1) (by omega))
              have kk := missingLoop_keeps hs hi0 (by omega) h0
              have kb := kk.same b (Or.inr (Or.inr hbv))
              have hn : j < n := by omega
              have hs' := kk.size
              cases r with
              | temp =>
                refine ⟨rfl, rfl, ?_, ?_, rfl, rfl⟩
                · rw [kj.2.2.1]
                  show (s.temp.set j _).getD j m = (s'.temp.set j _).getD j m
                  rw [getD_set _ _ _ _ _ (by rw [hs.temp]; omega), if_pos rfl, getD_set _ _ _ _ _ (by rw [hs'.temp]; omega), if_pos rfl, kp.2.2.1,
                    kb.2.2.1]
                  rfl
                · rw [kj.2.2.2.1]
                  show (s.dwpt.set j _).getD j m = (s'.dwpt.set j _).getD j m
                  rw [getD_set _ _ _ _ _ (by rw [hs.dwpt]; omega), if_pos rfl, getD_set _ _ _ _ _ (by rw [hs'.dwpt]; omega), if_pos rfl, kp.2.2.2.1,
                    kb.2.2.2.1]
                  rfl
              | drct =>
                refine ⟨rfl, rfl, rfl, rfl, ?_, ?_⟩
                · rw [kj.2.2.2.2.1]
                  show (s.drct.set j _).getD j m = (s'.drct.set j _).getD j m
                  rw [getD_set _ _ _ _ _ (by rw [hs.drct]; omega), if_pos rfl, getD_set _ _ _ _ _ (by rw [hs'.drct]; omega), if_pos rfl,
                    kp.2.2.2.2.1, kb.2.2.2.2.1]
                  rfl
                · rw [kj.2.2.2.2.2]
                  show (s.sped.set j _).getD j m = (s'.sped.set j _).getD j m
                  rw [getD_set _ _ _ _ _ (by rw [hs.sped]; omega), if_pos rfl, getD_set _ _ _ _ _ (by rw [hs'.sped]; omega), if_pos rfl,
                    kp.2.2.2.2.2, kb.2.2.2.2.2]
                  rfl
              | dwpt =>
                refine ⟨rfl, rfl, rfl, ?_, rfl, rfl⟩
                rw [kj.2.2.2.1]
                show (s.dwpt.set j _).getD j m = (s'.dwpt.set j _).getD j m
                rw [getD_set _ _ _ _ _ (by rw [hs.dwpt]; omega), if_pos rfl, getD_set _ _ _ _ _ (by rw [hs'.dwpt]; omega), if_pos rfl, kp.2.2.2.1,
                  kb.2.2.2.1]
                rfl
            · cases hf
        · have hcol : ∀ k, i < k → (r.column s1).getD k m = (r.column s).getD k m := fun k hk => (oth k (by omega)).column r
          obtain ⟨i1, i2⟩ := ih ks.size (by omega) (by omega) hab h (by omega) (by rw [hcol j (by omega)]; exact hm)
          have e1 : s1.pres = s.pres := ks.others.1
          refine ⟨fun hall => (oth j ej).trans (i1 fun k hk => by rw [hcol k (by omega)]; exact hall k hk), fun b hb hbv hbm => ?_⟩
          obtain ⟨d1, d2⟩ := i2 b hb (by rw [hcol b (by omega)]; exact hbv) (fun k a b' => by rw [hcol k (by omega)]; exact hbm k a b')
          rw [e1] at d1 d2
          exact ⟨fun hc => (oth j ej).trans (d1 hc), d2⟩
      · rw [e, ok_bind] at h
        dsimp only at h
        obtain ⟨k, hk, h⟩ := run_inv h
        obtain ⟨s1, hf, h⟩ := run_inv h
        have : k = 0 := by
          rcases crossTest_spec r s n i 0 hs (by omega) (by omega) with e | ⟨_, e⟩ <;> (rw [e] at hk; exact (Except.ok.inj hk).symm)
        subst this
        obtain rfl := Except.ok.inj hf
        rw [if_neg (by simp)] at h
        obtain rfl := Except.ok.inj h
        exact ⟨fun _ => SameLevel.refl m s j, fun b hb hbv _ => absurd (h1 b (by omega)) hbv⟩
    · rename_i hv
      have hne : j ≠ i := by rintro rfl; exact hv hm
      exact ih hs (by omega) (by omega) ⟨hia.1, fun h => ⟨(hia.2 (by omega)).1, fun j h1 h2 => (hia.2 (by omega)).2 j (by omega) h2⟩⟩ h
        (by omega) hm

theorem missingLoop_id {c : Calc α} {r : Recipe} {m : α} {n N i ia : Nat} {s : Snd α} (hs : s.Size n) (hi : i + N + 1 ≤ n)
    (hv : ∀ k, i ≤ k → k + 1 < n → (r.column s).getD k m ≠ m) : missingLoop c r m n N i ia s = .ok s := by
  induction N generalizing i with
  | zero => rfl
  | succ N ih =>
    rw [missingLoop, idx_ok (by rw [column_length hs]; omega) m, ok_bind, if_neg (hv i (le_refl _) (by omega))]
    exact ih (by omega) (fun k h1 h2 => hv k (by omega) h2)

end

/-! ## Dew points -/

/-- What the dew point of level `j` has to be: present values stay; a gap between two present values is filled from the line over log pressure
through them, unless it leads from above 100 hPa to below; everything else stays missing. -/
structure Spec.FilledDew (P D : List ℝ) (m : ℝ) (j : Nat) (v : ℝ) : Prop where
  kept : D.getD j m ≠ m → v = D.getD j m
  line : ∀ a b, Around D m a j b → ¬ (100 < P.getD a m ∧ P.getD b m < 100) →
    v = onLine (P.getD a m) (D.getD a m) (P.getD b m) (D.getD b m) (P.getD j m)
  cross : ∀ a b, Around D m a j b → 100 < P.getD a m → P.getD b m < 100 → v = m
  none : D.getD j m = m → ((∀ k, k < j → D.getD k m = m) ∨ (∀ k, j < k → D.getD k m = m)) → v = m

theorem gapWeight_line {P : List ℝ} {m : ℝ} {n j b : Nat} (hp : Falling P m n) (hj0 : j ≠ 0) (hjb : j < b) (hb : b < n) (x y : ℝ) :
    x + (y - x) * gapWeight realCalc P m j b = onLine (P.getD (j - 1) m) x (P.getD b m) y (P.getD j m) := by
  have f1 := hp (j - 1) j (by omega) (by omega)
  have f2 := hp j b hjb hb
  unfold gapWeight onLine realCalc
  dsimp only
  rw [Real.log_div f1.1.ne' f1.2.1.ne', Real.log_div f2.1.ne' f1.2.1.ne']

theorem interpParam_line {P : List ℝ} {m : ℝ} {n j b : Nat} (hp : Falling P m n) (hj0 : j ≠ 0) (hjb : j < b) (hb : b < n) (key : String)
    (hkey : key ≠ "DRCT") (x y : ℝ) (hx : x ≠ m) (hy : y ≠ m) :
    interpParam (gapWeight realCalc P m j b) m key x y = onLine (P.getD (j - 1) m) x (P.getD b m) y (P.getD j m) := by
  unfold interpParam
  rw [if_neg (by rintro (h | h); exacts [hx h.symm, hy h.symm]), if_neg hkey, gapWeight_line hp hj0 hjb hb]

theorem interpParam_missing {m w x y : ℝ} {key : String} (h : x = m ∨ y = m) : interpParam w m key x y = m := by
  unfold interpParam
  rw [if_pos (by rcases h with h | h; exacts [Or.inl h.symm, Or.inr h.symm])]

/-- Values of any column that are interpolated level by level over a gap lie on the line between its ends. -/
theorem gap_line {P D E : List ℝ} {m : ℝ} {n a b : Nat} (hp : Falling P m n) (hb : b < n) (ha : m < D.getD a m) (hbv : m < D.getD b m)
    (hEa : E.getD a m = D.getD a m) (key : String) (hkey : key ≠ "DRCT")
    (hstep : ∀ j, a < j → j < b → E.getD j m = interpParam (gapWeight realCalc P m j b) m key (E.getD (j - 1) m) (D.getD b m)) :
    ∀ d j, j = a + 1 + d → j < b → E.getD j m = onLine (P.getD a m) (D.getD a m) (P.getD b m) (D.getD b m) (P.getD j m) := by
  intro d
  induction d with
  | zero =>
    intro j hj hjb
    rw [hstep j (by omega) hjb, show j - 1 = a by omega, hEa, interpParam_line hp (by omega) hjb hb key hkey _ _ ha.ne' hbv.ne',
      show j - 1 = a by omega]
  | succ d ih =>
    intro j hj hjb
    have g1 := hp a (j - 1) (by omega) (by omega)
    have g2 := hp (j - 1) b (by omega) hb
    rw [hstep j (by omega) hjb, ih (j - 1) (by omega) (by omega), interpParam_line hp (by omega) hjb hb key hkey _ _
      (onLine_gt ha hbv g2.1 g2.2.2 g1.2.2).ne' hbv.ne', onLine_onLine g2.1 g2.2.2 g1.2.2]

theorem around_lt {D : List ℝ} {m : ℝ} {n a j b : Nat} (hD : D.length = n) (h : Around D m a j b) : b < n := by
  by_contra hc
  exact h.high (getD_ge _ _ _ (by omega))

theorem dewLoop {m : ℝ} {n : Nat} {s s' : Snd ℝ} (hs : s.Size n) (hn : 2 ≤ n) (hp : Falling s.pres m n)
    (hd : ∀ k, s.dwpt.getD k m ≠ m → m < s.dwpt.getD k m) (h : missingLoop realCalc .dwpt m n (n - 2) 1 0 s = .ok s') (j : Nat) :
    FilledDew s.pres s.dwpt m j (s'.dwpt.getD j m) := by
  have kk := missingLoop_keeps hs (by omega) (by omega) h
  have rec' := missingLoop_rec (j := 0) hs (by omega) (by omega) (AboveInv.of_zero (by omega)) h
  have hrec := fun j => missingLoop_rec hs (by omega) (by omega) (AboveInv.of_zero (by omega)) h j
  clear rec'
  have kept : ∀ j, s.dwpt.getD j m ≠ m → s'.dwpt.getD j m = s.dwpt.getD j m := fun j hj => (kk.same j (Or.inr (Or.inr hj))).2.2.2.1
  have stay : ∀ j, s.dwpt.getD j m = m → (∀ k, j < k → s.dwpt.getD k m = m) → s'.dwpt.getD j m = m := by
    intro j hj hall
    by_cases h0 : j = 0 ∨ n ≤ j + 1
    · rw [(kk.same j (by omega)).2.2.2.1]; exact hj
    · rw [((hrec j (by omega) (by omega) hj).1 hall).2.2.2.1]; exact hj
  have step : ∀ j b, 1 ≤ j → b < n → j < b → s.dwpt.getD j m = m → s.dwpt.getD b m ≠ m → (∀ k, j < k → k < b → s.dwpt.getD k m = m) →
      (Crosses .dwpt s.pres m j b → s'.dwpt.getD j m = m) ∧ (¬ Crosses .dwpt s.pres m j b →
        s'.dwpt.getD j m = interpParam (gapWeight realCalc s.pres m j b) m "DWPT" (s'.dwpt.getD (j - 1) m) (s.dwpt.getD b m)) := by
    intro j b h1 hbn hjb hj hbv hbm
    obtain ⟨d1, d2⟩ := (hrec j h1 (by omega) hj).2 b hjb hbv hbm
    refine ⟨fun hc => by rw [(d1 hc).2.2.2.1]; exact hj, fun hc => ?_⟩
    rw [(d2 hc).2.2.2.1]
    show (s'.dwpt.set j _).getD j m = _
    rw [getD_set _ _ _ _ _ (by rw [kk.size.dwpt]; omega), if_pos rfl, kept b hbv]
  refine ⟨kept j, fun a b hab hc => ?_, fun a b hab h1 h2 => ?_, fun hj hor => ?_⟩
  · have hbn := around_lt hs.dwpt hab
    refine gap_line hp hbn (hd a hab.low) (hd b hab.high) (kept a hab.low) "DWPT" (by decide) (fun i h1 h2 => ?_) (j - a - 1) j
      (by have := hab.below; omega) hab.above
    refine (step i b (by omega) hbn h2 (hab.next i h1 h2) hab.high (fun k k1 k2 => hab.next k (by omega) k2)).2 ?_
    rintro ⟨_, c1, c2⟩
    refine hc ⟨?_, c2⟩
    by_cases e : a = i - 1
    · rw [e]; exact c1
    · exact c1.trans (hp a (i - 1) (by omega) (by omega)).2.2
  · have hbn := around_lt hs.dwpt hab
    have key : ∀ d i, i = a + 1 + d → i < b → s'.dwpt.getD i m = m := by
      intro d
      induction d with
      | zero =>
        intro i hi hib
        refine (step i b (by omega) hbn hib (hab.next i (by omega) hib) hab.high (fun k k1 k2 => hab.next k (by omega) k2)).1 ⟨rfl, ?_, h2⟩
        rw [show i - 1 = a by omega]; exact h1
      | succ d ih =>
        intro i hi hib
        have := step i b (by omega) hbn hib (hab.next i (by omega) hib) hab.high (fun k k1 k2 => hab.next k (by omega) k2)
        by_cases hc : Crosses .dwpt s.pres m i b
        · exact this.1 hc
        · rw [this.2 hc]
          exact interpParam_missing (Or.inl (ih (i - 1) (by omega) (by omega)))
    exact key (j - a - 1) j (by have := hab.below; omega) hab.above
  · rcases hor with hb | hall
    · have key : ∀ i, i ≤ j → s'.dwpt.getD i m = m := by
        intro i
        induction i with
        | zero =>
          intro _
          rw [(kk.same 0 (Or.inl rfl)).2.2.2.1]
          by_cases e : 0 = j
          · rw [e]; exact hj
          · exact hb 0 (by omega)
        | succ i ih =>
          intro hi
          have hi' : s.dwpt.getD (i + 1) m = m := by
            by_cases e : i + 1 = j
            · rw [e]; exact hj
            · exact hb _ (by omega)
          by_cases hex : ∃ k, i + 1 < k ∧ s.dwpt.getD k m ≠ m
          · classical
            have hmin := Nat.find_spec hex
            have hlt : Nat.find hex < n := by
              by_contra hc
              exact hmin.2 (getD_ge _ _ _ (by rw [hs.dwpt]; omega))
            have := step (i + 1) (Nat.find hex) (by omega) hlt hmin.1 hi' hmin.2 (fun k k1 k2 => by
              by_contra hc
              exact Nat.find_min hex k2 ⟨k1, hc⟩)
            by_cases hc : Crosses .dwpt s.pres m (i + 1) (Nat.find hex)
            · exact this.1 hc
            · rw [this.2 hc]
              exact interpParam_missing (Or.inl (ih (by omega)))
          · push Not at hex
            exact stay _ hi' hex
      exact key j (le_refl _)
    · exact stay j hj hall

/-- C91: with positive, strictly falling pressures and no temperature missing between the ends, dew points are filled in all gaps, except that
gaps from above 100 hPa to below stay. -/
theorem C91_dew_points (m : ℝ) (n : Nat) (s : Snd ℝ) (hs : s.Size n) (hn : 2 ≤ n) (hp : Falling s.pres m n)
    (ht : ∀ k, 1 ≤ k → k + 1 < n → s.temp.getD k m ≠ m) (hd : ∀ k, s.dwpt.getD k m ≠ m → m < s.dwpt.getD k m) :
    ∃ s', interpMissingData realCalc m s = .ok s' ∧ ∀ j, FilledDew s.pres s.dwpt m j (s'.dwpt.getD j m) := by
  obtain ⟨s', h⟩ := C50_succeeds realCalc m s n hs hp
  refine ⟨s', h, ?_⟩
  unfold interpMissingData at h
  dsimp only at h
  rw [hs.pres, missingLoop_id hs (by omega) ht, ok_bind] at h
  obtain ⟨s2, h2, h3⟩ := run_inv h
  have k2 := missingLoop_keeps hs (by omega) (by omega) h2
  have e1 : s2.pres = s.pres := k2.others.1
  have e2 : s2.dwpt = s.dwpt := k2.others.2.2.2
  intro j
  have := dewLoop k2.size hn (by rw [e1]; exact hp) (by rw [e2]; exact hd) h3 j
  rw [e1, e2] at this
  exact this

/-! ## Winds -/

/-- Fraction of the way from level `a` to `b` over log pressure. -/
noncomputable def Spec.fraction (P : List ℝ) (m : ℝ) (a j b : Nat) : ℝ :=
  (Real.log (P.getD j m) - Real.log (P.getD a m)) / (Real.log (P.getD b m) - Real.log (P.getD a m))

/-- What the winds over the gap from level `a` to `b` have to be: the direction turns from one end to the other, by at most half a circle,
in proportion to log pressure; the speed is on the line, or missing when it is missing at one end. -/
structure Spec.FilledWind (P R V : List ℝ) (m : ℝ) (a b : Nat) (R' V' : List ℝ) : Prop where
  turn : ∃ t : ℝ, |t| ≤ 180 ∧ (∃ k : ℤ, R.getD a m + t = R.getD b m + 360 * k) ∧ ∀ j, a < j → j < b →
    0 ≤ R'.getD j m ∧ R'.getD j m < 360 ∧ ∃ k : ℤ, R'.getD j m = R.getD a m + Spec.fraction P m a j b * t + 360 * k
  speed : V.getD a m ≠ m → V.getD b m ≠ m → ∀ j, a < j → j < b →
    V'.getD j m = onLine (P.getD a m) (V.getD a m) (P.getD b m) (V.getD b m) (P.getD j m)
  none : V.getD a m = m ∨ V.getD b m = m → ∀ j, a < j → j < b → V'.getD j m = m

/-- One interpolation of directions. -/
theorem interpDirection_turn (a b w : ℝ) : ∃ t : ℝ, |t| ≤ 180 ∧ (∃ k : ℤ, a + t = b + 360 * k) ∧
    0 ≤ interpDirection a b w ∧ interpDirection a b w < 360 ∧ ∃ k : ℤ, interpDirection a b w = a + w * t + 360 * k := by
  unfold interpDirection
  obtain ⟨a0, a1, ka, ea⟩ := mod360_spec a
  obtain ⟨b0, b1, kb, eb⟩ := mod360_spec b
  generalize mod360 a = A at *
  generalize mod360 b = B at *
  dsimp only
  have main : ∀ (x y : ℝ) (i j : ℤ), x = A + 360 * i → y = B + 360 * j → |y - x| ≤ 180 →
      ∃ t : ℝ, |t| ≤ 180 ∧ (∃ k : ℤ, a + t = b + 360 * k) ∧
        0 ≤ mod360 (x + (y - x) * w) ∧ mod360 (x + (y - x) * w) < 360 ∧ ∃ k : ℤ, mod360 (x + (y - x) * w) = a + w * t + 360 * k := by
    intro x y i j hx hy hxy
    obtain ⟨m0, m1, km, em⟩ := mod360_spec (x + (y - x) * w)
    refine ⟨y - x, hxy, ⟨kb + j - ka - i, ?_⟩, m0, m1, ⟨ka + i + km, ?_⟩⟩
    · rw [hx, hy, ea, eb]; push_cast; ring
    · rw [em, hx, ea]; push_cast; ring
  split
  · rename_i hgt
    split
    · rename_i hlt
      refine main (A + 360) B 1 0 (by push_cast; ring) (by push_cast; ring) ?_
      rw [abs_of_neg (by linarith)] at hgt
      rw [abs_le]
      constructor <;> linarith
    · rename_i hlt
      refine main A (B + 360) 0 1 (by push_cast; ring) (by push_cast; ring) ?_
      rw [abs_of_nonneg (by linarith)] at hgt
      rw [abs_le]
      constructor <;> linarith
  · rename_i hle
    refine main A B 0 0 (by push_cast; ring) (by push_cast; ring) ?_
    rw [abs_sub_comm]
    exact not_lt.1 hle

theorem fraction_mem {P : List ℝ} {m : ℝ} {n a j b : Nat} (hp : Falling P m n) (h1 : a < j) (h2 : j < b) (hb : b < n) :
    0 < Spec.fraction P m a j b ∧ Spec.fraction P m a j b < 1 := by
  have f1 := hp a j h1 (by omega)
  have f2 := hp j b h2 hb
  have l1 := Real.log_lt_log f1.1 f1.2.2
  have l2 := Real.log_lt_log f2.1 f2.2.2
  unfold Spec.fraction
  rw [← neg_div_neg_eq]
  exact ⟨div_pos (by linarith) (by linarith), (div_lt_one (by linarith)).2 (by linarith)⟩

/-- The way from `a` over `i` to `j`. -/
theorem fraction_comp {P : List ℝ} {m : ℝ} {n a i j b : Nat} (hp : Falling P m n) (h1 : a < i) (h2 : i < j) (h3 : j < b) (hb : b < n) :
    Spec.fraction P m a i b + (1 - Spec.fraction P m a i b) * Spec.fraction P m i j b = Spec.fraction P m a j b := by
  have f1 := hp a i h1 (by omega)
  have f2 := hp i b (by omega) hb
  have l1 := Real.log_lt_log f1.1 f1.2.2
  have l2 := Real.log_lt_log f2.1 f2.2.2
  unfold Spec.fraction
  have d1 : Real.log (P.getD b m) - Real.log (P.getD i m) ≠ 0 := by linarith
  have d2 : Real.log (P.getD b m) - Real.log (P.getD a m) ≠ 0 := by linarith
  field_simp
  ring

theorem gapWeight_fraction {P : List ℝ} {m : ℝ} {n j b : Nat} (hp : Falling P m n) (hj0 : j ≠ 0) (hjb : j < b) (hb : b < n) :
    gapWeight realCalc P m j b = Spec.fraction P m (j - 1) j b := by
  have f1 := hp (j - 1) j (by omega) (by omega)
  have f2 := hp j b hjb hb
  unfold gapWeight Spec.fraction realCalc
  dsimp only
  rw [Real.log_div f1.1.ne' f1.2.1.ne', Real.log_div f2.1.ne' f1.2.1.ne']

theorem interpParam_direction {m w x y : ℝ} (hx : x ≠ m) (hy : y ≠ m) : interpParam w m "DRCT" x y = interpDirection x y w := by
  unfold interpParam
  rw [if_neg (by rintro (h | h); exacts [hx h.symm, hy h.symm]), if_pos rfl]

/-- Two turns of at most half a circle, one of them less, between the same directions are equal. -/
theorem turn_unique {x y t u : ℝ} (ht : |t| ≤ 180) (hu : |u| < 180) (h1 : ∃ k : ℤ, x + t = y + 360 * k) (h2 : ∃ k : ℤ, x + u = y + 360 * k) :
    t = u := by
  obtain ⟨k1, h1⟩ := h1
  obtain ⟨k2, h2⟩ := h2
  have e : t - u = 360 * ((k1 - k2 : ℤ) : ℝ) := by push_cast; linear_combination h1 - h2
  have hlt : |t - u| < 360 := by
    have := abs_sub t u
    linarith
  rw [e, abs_mul, abs_of_pos (by norm_num : (0 : ℝ) < 360)] at hlt
  have : |((k1 - k2 : ℤ) : ℝ)| < 1 := by linarith
  rw [← Int.cast_abs] at this
  have h0 : |k1 - k2| < 1 := by exact_mod_cast this
  have : k1 - k2 = 0 := Int.abs_lt_one_iff.1 h0
  rw [this] at e
  simp at e
  linarith

theorem gap_direction {P R E : List ℝ} {m : ℝ} {n a b : Nat} (hm : m < 0) (hp : Falling P m n) (hb : b < n) (ha : R.getD a m ≠ m)
    (hbv : R.getD b m ≠ m) (hEa : E.getD a m = R.getD a m)
    (hstep : ∀ j, a < j → j < b → E.getD j m = interpParam (gapWeight realCalc P m j b) m "DRCT" (E.getD (j - 1) m) (R.getD b m)) :
    ∃ t : ℝ, |t| ≤ 180 ∧ (∃ k : ℤ, R.getD a m + t = R.getD b m + 360 * k) ∧ ∀ j, a < j → j < b →
      0 ≤ E.getD j m ∧ E.getD j m < 360 ∧ ∃ k : ℤ, E.getD j m = R.getD a m + Spec.fraction P m a j b * t + 360 * k := by
  obtain ⟨t, t1, t2, -⟩ := interpDirection_turn (R.getD a m) (R.getD b m) 0
  by_cases hab : a + 1 < b
  swap
  · exact ⟨t, t1, t2, fun j h1 h2 => by omega⟩
  clear t1 t2 t
  have hfirst := hstep (a + 1) (by omega) hab
  rw [show a + 1 - 1 = a by omega, hEa, interpParam_direction ha hbv, gapWeight_fraction hp (by omega) hab hb, show a + 1 - 1 = a by omega] at hfirst
  obtain ⟨t, t1, t2, t3⟩ := interpDirection_turn (R.getD a m) (R.getD b m) (Spec.fraction P m a (a + 1) b)
  rw [← hfirst] at t3
  refine ⟨t, t1, t2, fun j h1 h2 => ?_⟩
  have key : ∀ d i, i = a + 1 + d → i < b →
      0 ≤ E.getD i m ∧ E.getD i m < 360 ∧ ∃ k : ℤ, E.getD i m = R.getD a m + Spec.fraction P m a i b * t + 360 * k := by
    intro d
    induction d with
    | zero => intro i hi hib; rw [show i = a + 1 by omega]; exact t3
    | succ d ih =>
      intro i hi hib
      obtain ⟨g1, g2, k, g3⟩ := ih (i - 1) (by omega) (by omega)
      obtain ⟨w0, w1⟩ := fraction_mem hp (by omega : a < i - 1) (by omega : i - 1 < b) hb
      have hs := hstep i (by omega) hib
      rw [interpParam_direction (by linarith) hbv, gapWeight_fraction hp (by omega) hib hb] at hs
      obtain ⟨u, u1, u2, u3⟩ := interpDirection_turn (E.getD (i - 1) m) (R.getD b m) (Spec.fraction P m (i - 1) i b)
      rw [← hs] at u3
      refine ⟨u3.1, u3.2.1, ?_⟩
      have hu : u = (1 - Spec.fraction P m a (i - 1) b) * t := by
        by_cases t0 : t = 0
        · have : |(1 - Spec.fraction P m a (i - 1) b) * t| < 180 := by rw [t0]; norm_num
          refine turn_unique u1 this u2 ?_
          obtain ⟨k', e⟩ := t2
          exact ⟨k + k', by rw [g3]; push_cast; linear_combination e⟩
        · have : |(1 - Spec.fraction P m a (i - 1) b) * t| < 180 := by
            rw [abs_mul, abs_of_pos (by linarith : (0 : ℝ) < 1 - Spec.fraction P m a (i - 1) b)]
            have : 0 < |t| := abs_pos.2 t0
            nlinarith
          refine turn_unique u1 this u2 ?_
          obtain ⟨k', e⟩ := t2
          exact ⟨k + k', by rw [g3]; push_cast; linear_combination e⟩
      obtain ⟨k', e⟩ := u3.2.2
      refine ⟨k + k', ?_⟩
      rw [e, g3, hu, ← fraction_comp hp (by omega : a < i - 1) (by omega : i - 1 < i) hib hb]
      push_cast
      ring
  exact key (j - a - 1) j (by omega) h2

/-- C91: with positive, strictly falling pressures the winds between two levels with wind are filled: the direction turns evenly over log
pressure along the shorter way, the speed is on the line between the speeds at the ends. -/
theorem C91_winds (m : ℝ) (hm : m < 0) (n : Nat) (s : Snd ℝ) (hs : s.Size n) (hn : 2 ≤ n) (hp : Falling s.pres m n)
    (hv : ∀ k, s.sped.getD k m ≠ m → m < s.sped.getD k m) :
    ∃ s', interpMissingData realCalc m s = .ok s' ∧ (∀ k, s.drct.getD k m ≠ m → s'.drct.getD k m = s.drct.getD k m ∧
      s'.sped.getD k m = s.sped.getD k m) ∧
      ∀ a j b, Around s.drct m a j b → FilledWind s.pres s.drct s.sped m a b s'.drct s'.sped := by
  obtain ⟨s', h⟩ := C50_succeeds realCalc m s n hs hp
  refine ⟨s', h, (C50_kept realCalc m s s' n hs h).2.2.2.2.2.2.1, ?_⟩
  unfold interpMissingData at h
  dsimp only at h
  rw [hs.pres] at h
  obtain ⟨s1, h1, h⟩ := run_inv h
  obtain ⟨s2, h2, h3⟩ := run_inv h
  have k1 := missingLoop_keeps hs (by omega) (by omega) h1
  have k2 := missingLoop_keeps k1.size (by omega) (by omega) h2
  have k3 := missingLoop_keeps k2.size (by omega) (by omega) h3
  have e1 : s1.pres = s.pres := k1.others.1
  have e2 : s1.drct = s.drct := k1.others.2.2.1
  have e3 : s1.sped = s.sped := k1.others.2.2.2
  have e4 : s'.drct = s2.drct := k3.others.2.2.2.1
  have e5 : s'.sped = s2.sped := k3.others.2.2.2.2
  rw [e4, e5, ← e1, ← e2, ← e3]
  rw [← e1] at hp
  rw [← e3] at hv
  intro a j b hab
  have hbn := around_lt k1.size.drct hab
  have kept : ∀ j, s1.drct.getD j m ≠ m → s2.drct.getD j m = s1.drct.getD j m ∧ s2.sped.getD j m = s1.sped.getD j m :=
    fun j hj => ⟨(k2.same j (Or.inr (Or.inr hj))).2.2.2.2.1, (k2.same j (Or.inr (Or.inr hj))).2.2.2.2.2⟩
  have step : ∀ j, a < j → j < b →
      s2.drct.getD j m = interpParam (gapWeight realCalc s1.pres m j b) m "DRCT" (s2.drct.getD (j - 1) m) (s1.drct.getD b m) ∧
      s2.sped.getD j m = interpParam (gapWeight realCalc s1.pres m j b) m "SPED" (s2.sped.getD (j - 1) m) (s1.sped.getD b m) := by
    intro i hai hib
    obtain ⟨_, d⟩ := missingLoop_rec k1.size (by omega) (by omega) (AboveInv.of_zero (by omega)) h2 i (by omega) (by omega) (hab.next i hai hib)
    have := (d b hib hab.high (fun k a1 a2 => hab.next k (by omega) a2)).2 (fun hc => by cases hc.1)
    refine ⟨?_, ?_⟩
    · rw [this.2.2.2.2.1]
      show (s2.drct.set i _).getD i m = _
      rw [getD_set _ _ _ _ _ (by rw [k2.size.drct]; omega), if_pos rfl, (kept b hab.high).1]
    · rw [this.2.2.2.2.2]
      show (s2.sped.set i _).getD i m = _
      rw [getD_set _ _ _ _ _ (by rw [k2.size.sped]; omega), if_pos rfl, (kept b hab.high).2]
  refine ⟨gap_direction hm hp hbn hab.low hab.high (kept a hab.low).1 (fun j h1 h2 => (step j h1 h2).1), fun va vb j h1 h2 => ?_, fun hor => ?_⟩
  · exact gap_line hp hbn (hv a va) (hv b vb) (kept a hab.low).2 "SPED" (by decide) (fun i a1 a2 => (step i a1 a2).2) (j - a - 1) j (by omega) h2
  · have key : ∀ d i, i = a + 1 + d → i < b → s2.sped.getD i m = m := by
      intro d
      induction d with
      | zero =>
        intro i hi hib
        rw [(step i (by omega) hib).2]
        apply interpParam_missing
        rcases hor with e | e
        · left; rw [show i - 1 = a by omega, (kept a hab.low).2]; exact e
        · exact Or.inr e
      | succ d ih =>
        intro i hi hib
        rw [(step i (by omega) hib).2]
        exact interpParam_missing (Or.inl (ih (i - 1) (by omega) (by omega)))
    intro j h1 h2
    exact key (j - a - 1) j (by omega) h2

/-- A sounding with gaps in dew points below and across 100 hPa and in winds. -/
noncomputable def gapSample : Snd ℝ :=
  ⟨[1000, 900, 800, 90, 80], [0, 1, 2, 3, 4], [20, 10, 0, -50, -60], [10, -9999, 5, -9999, -70], [350, -9999, -9999, -9999, 20], [5, 0, 0, 0, 9]⟩

example : gapSample.Size 5 ∧ Falling gapSample.pres (-9999) 5 ∧ Around gapSample.dwpt (-9999) 0 1 2 ∧ Around gapSample.dwpt (-9999) 2 3 4 ∧
    Around gapSample.drct (-9999) 0 2 4 ∧ 100 < gapSample.pres.getD 2 (-9999) ∧ gapSample.pres.getD 4 (-9999) < 100 ∧
    (∀ k, 1 ≤ k → k + 1 < 5 → gapSample.temp.getD k (-9999) ≠ -9999) := by
  refine ⟨⟨rfl, rfl, rfl, rfl, rfl, rfl⟩, ?_, ⟨by omega, by omega, ?_, ?_, ?_⟩, ⟨by omega, by omega, ?_, ?_, ?_⟩, ⟨by omega, by omega, ?_, ?_, ?_⟩,
    ?_, ?_, ?_⟩
  · intro i j h1 h2
    have : i < 5 := by omega
    interval_cases j <;> interval_cases i <;> simp [gapSample] <;> norm_num
  all_goals first
    | (intro k h1 h2; interval_cases k <;> simp [gapSample] <;> norm_num; done)
    | (intro k h1 h2; have h3 : k < 4 := by omega
       clear h2; interval_cases k <;> simp [gapSample] <;> norm_num; done)
    | (simp [gapSample] <;> norm_num; done)
    | (simp [gapSample]; done)

/-- Three levels; the temperature of the middle one is missing, the dew point is not. -/
noncomputable def erasedSample : Snd ℝ :=
  ⟨[1000, 900, 800], [100, 1000, 2000], [10, -9999, 0], [5, 3, -9999], [180, 190, 200], [5, 6, 7]⟩

/-- Three levels across 100 hPa; temperature and dew point of the middle one are missing. -/
noncomputable def crossedSample : Snd ℝ :=
  ⟨[150, 120, 80], [13000, 14500, 17000], [-50, -9999, -60], [-60, -9999, -60], [180, 190, 200], [5, 6, 7]⟩

theorem erased_run : ∃ t, interpMissingData realCalc (-9999) erasedSample = .ok { erasedSample with temp := t, dwpt := [5, -9999, -9999] } := by
  unfold interpMissingData
  dsimp only
  rw [show erasedSample.pres.length = 3 from rfl, missingLoop, idx_ok (by simp [Recipe.column, erasedSample]) (-9999 : ℝ), ok_bind,
    if_pos (by simp [Recipe.column, erasedSample])]
  rw [show levelAbove .temp erasedSample (-9999) 3 1 0 = .ok (2, true) by
    simp [levelAbove, findAbove, Recipe.column, erasedSample, idx, bind, Except.bind]]
  rw [ok_bind]
  dsimp only
  rw [show crossTest .temp erasedSample 1 2 = .ok 2 by simp [crossTest], ok_bind,
    fillMissing_eq realCalc .temp erasedSample (-9999) 3 1 2 ⟨rfl, rfl, rfl, rfl, rfl, rfl⟩ (by omega) (by omega) (by omega),
    if_pos (by simp [erasedSample, strictlyBetween]; norm_num), ok_bind, if_pos rfl, missingLoop, ok_bind]
  simp [filled, interpParam, erasedSample, missingLoop, Recipe.column, idx, levelAbove, findAbove, crossTest, fillMissing, bind, Except.bind]
  norm_num

/-- C91 is false where temperatures are missing: a measured dew point is erased when the next level with a temperature has none. -/
theorem C91_erased : erasedSample.Size 3 ∧ Falling erasedSample.pres (-9999) 3 ∧ erasedSample.dwpt.getD 1 (-9999) = 3 ∧
    ∃ s', interpMissingData realCalc (-9999) erasedSample = .ok s' ∧ s'.dwpt.getD 1 (-9999) = -9999 ∧ s'.dwpt.length = 3 := by
  refine ⟨⟨rfl, rfl, rfl, rfl, rfl, rfl⟩, ?_, rfl, ?_⟩
  · intro i j h1 h2
    have : i < 3 := by omega
    interval_cases j <;> interval_cases i <;> simp [erasedSample] <;> norm_num
  · obtain ⟨t, e⟩ := erased_run
    exact ⟨_, e, rfl, rfl⟩

/-- C91 is false where temperatures are missing: there a dew point is filled across 100 hPa. -/
theorem C91_crossed : crossedSample.Size 3 ∧ Falling crossedSample.pres (-9999) 3 ∧ Around crossedSample.dwpt (-9999) 0 1 2 ∧
    100 < crossedSample.pres.getD 0 (-9999) ∧ crossedSample.pres.getD 2 (-9999) < 100 ∧
    ∃ s', interpMissingData realCalc (-9999) crossedSample = .ok s' ∧ s'.dwpt.getD 1 (-9999) = -60 := by
  refine ⟨⟨rfl, rfl, rfl, rfl, rfl, rfl⟩, ?_, ⟨by omega, by omega, ?_, ?_, ?_⟩, ?_, ?_, ?_⟩
  · intro i j h1 h2
    have : i < 3 := by omega
    interval_cases j <;> interval_cases i <;> simp [crossedSample] <;> norm_num
  · simp [crossedSample]
  · simp [crossedSample]
  · intro k h1 h2
    interval_cases k; simp [crossedSample]
  · simp [crossedSample]; norm_num
  · simp [crossedSample]; norm_num
  · unfold interpMissingData
    dsimp only
    rw [show crossedSample.pres.length = 3 from rfl, missingLoop, idx_ok (by simp [Recipe.column, crossedSample]) (-9999 : ℝ), ok_bind,
      if_pos (by simp [Recipe.column, crossedSample])]
    rw [show levelAbove .temp crossedSample (-9999) 3 1 0 = .ok (2, true) by
      simp [levelAbove, findAbove, Recipe.column, crossedSample, idx, bind, Except.bind]]
    rw [ok_bind]
    dsimp only
    rw [show crossTest .temp crossedSample 1 2 = .ok 2 by simp [crossTest], ok_bind,
      fillMissing_eq realCalc .temp crossedSample (-9999) 3 1 2 ⟨rfl, rfl, rfl, rfl, rfl, rfl⟩ (by omega) (by omega) (by omega),
      if_pos (by simp [crossedSample, strictlyBetween]; norm_num), ok_bind, if_pos rfl, missingLoop, ok_bind]
    simp [filled, interpParam, crossedSample, missingLoop, Recipe.column, idx, levelAbove, findAbove, crossTest, fillMissing, bind, Except.bind]
    norm_num

end Gempak
