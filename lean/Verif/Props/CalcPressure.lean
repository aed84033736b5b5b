import Mathlib.Tactic.Linarith
import Verif.Proof.CalcList
import Verif.Props.Calc

/-!
# C49: pressure from heights
-/

namespace Gempak

section
variable {α : Type} [Field α] [LinearOrder α]

/-- Level `k` has a pressure and a height (levels beyond the end have none). -/
def Spec.Full (P Z : List α) (m : α) (k : Nat) : Prop := P.getD k m ≠ m ∧ Z.getD k m ≠ m

/-- `a` and `b` are the next levels below and above `j` with pressure and height. -/
structure Spec.Bracket (P Z : List α) (m : α) (a j b : Nat) : Prop where
  below : a < j
  above : j < b
  low : Full P Z m a
  high : Full P Z m b
  next : ∀ k, a < k → k < b → ¬ Full P Z m k

/-- Pressure at height `z` on the line of log pressure over height through two levels. -/
def linePressure (c : Calc α) (pb zb pt zt z : α) : α := pb * c.exp ((z - zb) * c.log (pt / pb) / (zt - zb))

open Spec

theorem fillPressure_spec (c : Calc α) (m pb zb pt zt : α) (hz : zb ≠ m) (hp : pb ≠ m) (n j : Nat) (s : Snd α)
    (h1 : j + n ≤ s.pres.length) (h2 : j + n ≤ s.hght.length) :
    ∃ P', fillPressure c m pb zb pt zt n j s = .ok { s with pres := P' } ∧ P'.length = s.pres.length ∧
      ∀ k, P'.getD k m = if (j ≤ k ∧ k < j + n) ∧ s.hght.getD k m ≠ m then linePressure c pb zb pt zt (s.hght.getD k m)
        else s.pres.getD k m := by
  induction n generalizing j s with
  | zero => exact ⟨s.pres, rfl, rfl, fun k => by rw [if_neg (by rintro ⟨h, _⟩; omega)]⟩
  | succ n ih =>
    rw [fillPressure, idx_ok (by omega) m, ok_bind]
    by_cases hzz : s.hght.getD j m ≠ m
    · rw [if_pos ⟨hzz, hz, hp⟩, put_ok (by omega), ok_bind]
      obtain ⟨P', e1, e2, e3⟩ := ih (j + 1) { s with pres := s.pres.set j (linePressure c pb zb pt zt (s.hght.getD j m)) }
        (by rw [List.length_set]; omega) (by dsimp only; omega)
      refine ⟨P', e1, by rw [e2, List.length_set], fun k => ?_⟩
      rw [e3 k]
      dsimp only
      rw [getD_set _ _ _ _ _ (by omega)]
      by_cases hk : k = j
      · subst hk
        rw [if_neg (by rintro ⟨h, _⟩; omega), if_pos rfl, if_pos ⟨by omega, hzz⟩]
      · rw [if_neg hk]
        by_cases hc : (j + 1 ≤ k ∧ k < j + 1 + n) ∧ s.hght.getD k m ≠ m
        · rw [if_pos hc, if_pos ⟨by omega, hc.2⟩]
        · rw [if_neg hc, if_neg (fun h => hc ⟨by omega, h.2⟩)]
    · rw [if_neg (fun h => hzz h.1)]
      obtain ⟨P', e1, e2, e3⟩ := ih (j + 1) s (by omega) (by omega)
      refine ⟨P', e1, e2, fun k => ?_⟩
      rw [e3 k]
      by_cases hc : (j + 1 ≤ k ∧ k < j + 1 + n) ∧ s.hght.getD k m ≠ m
      · rw [if_pos hc, if_pos ⟨by omega, hc.2⟩]
      · rw [if_neg hc, if_neg]
        rintro ⟨h3, h4⟩
        by_cases hk : k = j
        · subst hk; exact hzz h4
        · exact hc ⟨by omega, h4⟩

/-- What is known of a level whose bracket has been passed. -/
structure Settled (c : Calc α) (P Z : List α) (m : α) (P' : List α) (j : Nat) : Prop where
  kept : P.getD j m ≠ m → P'.getD j m = P.getD j m
  filled : ∀ a b, Bracket P Z m a j b → Z.getD j m ≠ m →
    P'.getD j m = linePressure c (P.getD a m) (Z.getD a m) (P.getD b m) (Z.getD b m) (Z.getD j m)
  left : P.getD j m = m → (Z.getD j m = m ∨ ∀ k, k < j → ¬ Full P Z m k) → P'.getD j m = m

/-- State of the loop before level `i`. -/
structure PresInv (c : Calc α) (P Z : List α) (m : α) (i : Nat) (P' : List α) (v : PresVars α) : Prop where
  len : P'.length = P.length
  same : v.ilev = v.klev ∧ v.pb = v.pt ∧ v.zb = v.zt
  none : v.klev = none → (∀ k, k < i → ¬ Full P Z m k) ∧ P' = P
  some : ∀ a, v.klev = some a → (a < i ∧ Full P Z m a ∧ (∀ k, a < k → k < i → ¬ Full P Z m k)) ∧
    (v.pt = P.getD a m ∧ v.zt = Z.getD a m) ∧ (∀ j, a ≤ j → P'.getD j m = P.getD j m) ∧ ∀ j, j < a → Settled c P Z m P' j

/-- The conditional filling of a round. -/
theorem pressureLoop_step (c : Calc α) (P Z : List α) (m : α) (i : Nat) (s : Snd α) (v : PresVars α) (hZ : Z = s.hght)
    (hi : i < P.length) (hl : P.length = Z.length) (hv : PresInv c P Z m i s.pres v) (n : Nat) :
    ∃ P' v', pressureLoop c m (n + 1) i s v = pressureLoop c m n (i + 1) { s with pres := P' } v' ∧
      PresInv c P Z m (i + 1) P' v' := by
  subst hZ
  have hp : s.pres.getD i m = P.getD i m := by
    cases hk : v.klev with
    | none => rw [(hv.none hk).2]
    | some a => exact (hv.some a hk).2.2.1 i (by have := (hv.some a hk).1.1; omega)
  rw [pressureLoop, idx_ok (by rw [hv.len]; exact hi) m, ok_bind, hp, idx_ok (by omega) m, ok_bind]
  dsimp only
  obtain ⟨ilev, klev, pb, zb, pt, zt⟩ := v
  obtain ⟨e1, e2, e3⟩ := hv.same
  dsimp only at e1 e2 e3
  subst e1 e2 e3
  by_cases hf : P.getD i m ≠ m ∧ s.hght.getD i m ≠ m
  · have hs : seeLevel m i (P.getD i m) (s.hght.getD i m) ⟨ilev, ilev, pb, zb, pb, zb⟩ =
        ⟨ilev, some i, pb, zb, P.getD i m, s.hght.getD i m⟩ := by
      unfold seeLevel; rw [if_pos hf]
    rw [hs]
    cases ilev with
    | none =>
      obtain ⟨h1, h2⟩ := hv.none rfl
      refine ⟨s.pres, ⟨some i, some i, P.getD i m, s.hght.getD i m, P.getD i m, s.hght.getD i m⟩, rfl, hv.len, ⟨rfl, rfl, rfl⟩,
        fun h => (by cases h), ?_⟩
      intro a ha
      obtain rfl := Option.some.inj ha
      refine ⟨⟨by omega, hf, fun k h3 h4 => by omega⟩, ⟨rfl, rfl⟩, fun j _ => by rw [h2], fun j hj => ⟨fun _ => by rw [h2], ?_, ?_⟩⟩
      · intro a b hb
        exact absurd hb.low (h1 a (by have := hb.below; omega))
      · intro h3 _
        rw [h2]; exact h3
    | some il =>
      obtain ⟨⟨h1, h2, h3⟩, ⟨h4, h5⟩, h6, h7⟩ := hv.some il rfl
      dsimp only at h4 h5
      subst h4 h5
      obtain ⟨P', f1, f2, f3⟩ := fillPressure_spec c m (P.getD il m) (s.hght.getD il m) (P.getD i m) (s.hght.getD i m) h2.2 h2.1
        (i - (il + 1)) (il + 1) s (by rw [hv.len]; omega) (by omega)
      have f1' : fillBetween c m ⟨some il, some i, P.getD il m, s.hght.getD il m, P.getD i m, s.hght.getD i m⟩ s =
        .ok { s with pres := P' } := f1
      rw [f1', ok_bind]
      refine ⟨P', ⟨some i, some i, P.getD i m, s.hght.getD i m, P.getD i m, s.hght.getD i m⟩, rfl, f2.trans hv.len, ⟨rfl, rfl, rfl⟩,
        fun h => (by cases h), ?_⟩
      intro a ha
      obtain rfl := Option.some.inj ha
      refine ⟨⟨by omega, hf, fun k h8 h9 => by omega⟩, ⟨rfl, rfl⟩, fun j hj => ?_, fun j hj => ?_⟩
      · rw [f3 j, if_neg (by rintro ⟨h, _⟩; omega)]
        exact h6 j (by omega)
      · by_cases hj2 : j < il
        · have e : P'.getD j m = s.pres.getD j m := by rw [f3 j, if_neg (by rintro ⟨h, _⟩; omega)]
          obtain ⟨g1, g2, g3⟩ := h7 j hj2
          exact ⟨fun h => by rw [e]; exact g1 h, fun a b hb hz => by rw [e]; exact g2 a b hb hz, fun h h' => by rw [e]; exact g3 h h'⟩
        · by_cases hj3 : j = il
          · subst hj3
            have e : P'.getD j m = P.getD j m := by
              rw [f3 j, if_neg (by rintro ⟨h, _⟩; omega)]
              exact h6 j (le_refl j)
            refine ⟨fun _ => e, fun a b hb _ => ?_, fun h _ => absurd h h2.1⟩
            exact absurd h2 (hb.next j hb.below hb.above)
          · have hnf : ¬ Full P s.hght m j := h3 j (by omega) hj
            by_cases hz : s.hght.getD j m ≠ m
            · have hPj : P.getD j m = m := by
                by_contra hc
                exact hnf ⟨hc, hz⟩
              have e : P'.getD j m = linePressure c (P.getD il m) (s.hght.getD il m) (P.getD i m) (s.hght.getD i m) (s.hght.getD j m) := by
                rw [f3 j, if_pos ⟨by omega, hz⟩]
              refine ⟨fun h => absurd hPj h, fun a b hb _ => ?_, fun _ h => ?_⟩
              · have ea : a = il := by
                  have g1 := hb.below
                  have g2 := hb.above
                  rcases lt_trichotomy a il with h | h | h
                  · exact absurd h2 (hb.next il h (by omega))
                  · exact h
                  · exact absurd hb.low (h3 a h (by omega))
                have eb : b = i := by
                  have g1 := hb.below
                  have g2 := hb.above
                  rcases lt_trichotomy b i with h | h | h
                  · exact absurd hb.high (h3 b (by omega) h)
                  · exact h
                  · exact absurd hf (hb.next i (by omega) h)
                rw [e, ea, eb]
              · rcases h with h | h
                · exact absurd h hz
                · exact absurd h2 (h il (by omega))
            · have e : P'.getD j m = P.getD j m := by
                rw [f3 j, if_neg (fun h => hz h.2)]
                exact h6 j (by omega)
              exact ⟨fun _ => e, fun a b _ h => absurd h hz, fun h _ => by rw [e]; exact h⟩
  · have hs : seeLevel m i (P.getD i m) (s.hght.getD i m) ⟨ilev, ilev, pb, zb, pb, zb⟩ = ⟨ilev, ilev, pb, zb, pb, zb⟩ := by
      unfold seeLevel; rw [if_neg hf]
    rw [hs]
    have hbody : fillBetween c m ⟨ilev, ilev, pb, zb, pb, zb⟩ s = .ok s := by
      unfold fillBetween
      cases ilev with
      | none => rfl
      | some il =>
        dsimp only
        rw [show il - (il + 1) = 0 by omega]
        rfl
    rw [hbody, ok_bind]
    refine ⟨s.pres, ⟨ilev, ilev, pb, zb, pb, zb⟩, rfl, hv.len, ⟨rfl, rfl, rfl⟩, fun h => ?_, fun a h => ?_⟩
    · obtain ⟨h1, h2⟩ := hv.none h
      refine ⟨fun k hk => ?_, h2⟩
      by_cases e : k = i
      · subst e; exact hf
      · exact h1 k (by omega)
    · obtain ⟨⟨h1, h2, h3⟩, h4, h5, h6⟩ := hv.some a h
      refine ⟨⟨by omega, h2, fun k h7 h8 => ?_⟩, h4, h5, h6⟩
      by_cases e : k = i
      · subst e; exact hf
      · exact h3 k h7 (by omega)

theorem pressureLoop_spec (c : Calc α) (P Z : List α) (m : α) (hl : P.length = Z.length) (n i : Nat) (s : Snd α) (v : PresVars α)
    (hZ : Z = s.hght) (hi : i + n = P.length) (hv : PresInv c P Z m i s.pres v) :
    ∃ P' v', pressureLoop c m n i s v = .ok { s with pres := P' } ∧ PresInv c P Z m P.length P' v' := by
  induction n generalizing i s v with
  | zero =>
    rw [Nat.add_zero] at hi
    subst hi
    exact ⟨s.pres, v, rfl, hv⟩
  | succ n ih =>
    obtain ⟨P1, v1, h1, h2⟩ := pressureLoop_step c P Z m i s v hZ (by omega) hl hv n
    obtain ⟨P', v', h3, h4⟩ := ih (i + 1) { s with pres := P1 } v1 hZ (by omega) h2
    exact ⟨P', v', h1.trans h3, h4⟩

/-- C49: only the pressures change; present ones stay; a missing one is put on the line of log pressure over height through the next
levels with pressure and height below and above; without height or without such levels it stays missing. -/
theorem C49_filled (c : Calc α) (m : α) (s : Snd α) (n : Nat) (hs : s.pres.length = n) (hh : s.hght.length = n) :
    ∃ P', interpLogpPressure c m s = .ok { s with pres := P' } ∧ P'.length = n ∧
      (∀ j, s.pres.getD j m ≠ m → P'.getD j m = s.pres.getD j m) ∧
      (∀ a j b, Bracket s.pres s.hght m a j b → s.hght.getD j m ≠ m →
        P'.getD j m = linePressure c (s.pres.getD a m) (s.hght.getD a m) (s.pres.getD b m) (s.hght.getD b m) (s.hght.getD j m)) ∧
      (∀ j, s.pres.getD j m = m → (s.hght.getD j m = m ∨ (∀ k, k < j → ¬ Full s.pres s.hght m k) ∨
        ∀ k, j < k → ¬ Full s.pres s.hght m k) → P'.getD j m = m) := by
  obtain ⟨P', v, h1, h2⟩ := pressureLoop_spec c s.pres s.hght m (by omega) s.pres.length 0 s ⟨none, none, m, m, m, m⟩ rfl (by omega)
    ⟨rfl, ⟨rfl, rfl, rfl⟩, fun _ => ⟨fun k hk => by omega, rfl⟩, fun a h => by cases h⟩
  refine ⟨P', h1, h2.len.trans hs, ?_⟩
  cases hk : v.klev with
  | none =>
    obtain ⟨h3, h4⟩ := h2.none hk
    subst h4
    have hnf : ∀ k, ¬ Full s.pres s.hght m k := fun k hf => h3 k (getD_ne_lt hf.1) hf
    exact ⟨fun _ _ => rfl, fun a j b hb => absurd hb.low (hnf a), fun j h _ => h⟩
  | some a =>
    obtain ⟨⟨h3, h4, h5⟩, _, h6, h7⟩ := h2.some a hk
    refine ⟨fun j hj => ?_, fun a' j b hb hz => ?_, fun j hj hc => ?_⟩
    · by_cases hja : j < a
      · exact (h7 j hja).kept hj
      · exact h6 j (by omega)
    · by_cases hja : j < a
      · exact (h7 j hja).filled a' b hb hz
      · have : a < b := by have := hb.above; omega
        exact absurd hb.high (h5 b this (getD_ne_lt hb.high.1))
    · by_cases hja : j < a
      · refine (h7 j hja).left hj ?_
        rcases hc with h | h | h
        · exact Or.inl h
        · exact Or.inr h
        · exact absurd h4 (h a hja)
      · rw [h6 j (by omega)]; exact hj

end

open Spec

/-- C49: a pressure filled in at a height between the heights of the two levels is positive and between their pressures. -/
theorem C49_between (pb zb pt zt z : ℝ) (hb : 0 < pb) (ht : 0 < pt) (hz : zb < z ∧ z < zt) :
    0 < linePressure realCalc pb zb pt zt z ∧ min pb pt ≤ linePressure realCalc pb zb pt zt z ∧
      linePressure realCalc pb zb pt zt z ≤ max pb pt ∧
      Real.log (linePressure realCalc pb zb pt zt z) =
        Real.log pb + (Real.log pt - Real.log pb) * ((z - zb) / (zt - zb)) := by
  have e : linePressure realCalc pb zb pt zt z = Real.exp (Real.log pb + (Real.log pt - Real.log pb) * ((z - zb) / (zt - zb))) := by
    unfold linePressure realCalc
    dsimp only
    rw [Real.exp_add, Real.exp_log hb, Real.log_div ht.ne' hb.ne']
    congr 2
    ring
  have d : 0 < zt - zb := by linarith [hz.1, hz.2]
  have t0 : 0 < (z - zb) / (zt - zb) := div_pos (by linarith [hz.1]) d
  have t1 : (z - zb) / (zt - zb) < 1 := (div_lt_one d).mpr (by linarith [hz.2])
  generalize (z - zb) / (zt - zb) = t at *
  rw [e]
  refine ⟨Real.exp_pos _, ?_, ?_, Real.log_exp _⟩
  · rcases le_total pb pt with h | h
    · rw [min_eq_left h]
      have hl := Real.log_le_log hb h
      calc pb = Real.exp (Real.log pb) := (Real.exp_log hb).symm
        _ ≤ _ := Real.exp_le_exp.mpr (by nlinarith)
    · rw [min_eq_right h]
      have hl := Real.log_le_log ht h
      calc pt = Real.exp (Real.log pt) := (Real.exp_log ht).symm
        _ ≤ _ := Real.exp_le_exp.mpr (by nlinarith)
  · rcases le_total pb pt with h | h
    · rw [max_eq_right h]
      have hl := Real.log_le_log hb h
      calc _ ≤ Real.exp (Real.log pt) := Real.exp_le_exp.mpr (by nlinarith)
        _ = pt := Real.exp_log ht
    · rw [max_eq_left h]
      have hl := Real.log_le_log ht h
      calc _ ≤ Real.exp (Real.log pb) := Real.exp_le_exp.mpr (by nlinarith)
        _ = pb := Real.exp_log hb

/-- A level between two full ones, with made-up functions in place of `log` and `exp`: the run itself. -/
def presSample : Snd ℚ :=
  ⟨[1000, -9999, 500, -9999], [0, 100, 200, 300], [0, 0, 0, 0], [0, 0, 0, 0], [0, 0, 0, 0], [0, 0, 0, 0]⟩

example : interpLogpPressure ⟨fun x => x - 1, fun x => x + 1⟩ (-9999) presSample = .ok { presSample with pres := [1000, 750, 500, -9999] } ∧
    Bracket presSample.pres presSample.hght (-9999) 0 1 2 := by
  refine ⟨by decide +kernel, by decide, by decide, ⟨by decide, by decide⟩, ⟨by decide, by decide⟩, ?_⟩
  intro k h1 h2
  obtain rfl : k = 1 := by omega
  rintro ⟨h, _⟩
  exact h rfl

end Gempak
