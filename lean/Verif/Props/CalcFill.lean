import Mathlib.Tactic.FieldSimp
import Mathlib.Tactic.IntervalCases
import Mathlib.Tactic.NormNum
import Verif.Props.CalcMissing

/-!
# C50: what the filling of missing data can raise, and the temperatures it fills in
-/

namespace Gempak

open Spec

section
variable {α : Type} [Field α] [LinearOrder α] [FloorRing α]

/-- The six values of a level. -/
def six (p z t d r w : α) : LevelData α := [("PRES", p), ("HGHT", z), ("TEMP", t), ("DWPT", d), ("DRCT", r), ("SPED", w)]

theorem interp_six (c : Calc α) (v m p z t d r w p' z' t' d' r' w' : α) :
    interpParameters c v (six p z t d r w) (six p' z' t' d' r' w') m =
      if ¬ strictlyBetween p p' v then .error .valueError
      else if p ≤ 0 ∨ p' ≤ 0 then .error .valueError
      else
        let x := c.log (v / p) / c.log (p' / p)
        .ok (six (interpParam x m "PRES" p p') (interpParam x m "HGHT" z z') (interpParam x m "TEMP" t t') (interpParam x m "DWPT" d d')
          (interpParam x m "DRCT" r r') (interpParam x m "SPED" w w')) := by
  unfold interpParameters
  rw [show getKey (six p z t d r w) "PRES" = .ok p from rfl, show getKey (six p' z' t' d' r' w') "PRES" = .ok p' from rfl, ok_bind, ok_bind]
  split
  · rfl
  · split
    · rfl
    · simp [six, interpLoop, getKey, setKey, ok_bind]

theorem levelAt_ok {s : Snd α} {n i : Nat} (hs : s.Size n) (hi : i < n) (m : α) :
    levelAt s i = .ok (six (s.pres.getD i m) (s.hght.getD i m) (s.temp.getD i m) (s.dwpt.getD i m) (s.drct.getD i m) (s.sped.getD i m)) := by
  unfold levelAt
  rw [idx_ok (by rw [hs.pres]; exact hi) m, ok_bind, idx_ok (by rw [hs.hght]; exact hi) m, ok_bind, idx_ok (by rw [hs.temp]; exact hi) m, ok_bind,
    idx_ok (by rw [hs.dwpt]; exact hi) m, ok_bind, idx_ok (by rw [hs.drct]; exact hi) m, ok_bind, idx_ok (by rw [hs.sped]; exact hi) m, ok_bind]
  rfl

/-- What one filling stores. -/
def filled (r : Recipe) (s : Snd α) (m x : α) (i k : Nat) : Snd α :=
  match r with
  | .temp => { s with temp := s.temp.set i (interpParam x m "TEMP" (s.temp.getD (i - 1) m) (s.temp.getD k m)),
                      dwpt := s.dwpt.set i (interpParam x m "DWPT" (s.dwpt.getD (i - 1) m) (s.dwpt.getD k m)) }
  | .drct => { s with drct := s.drct.set i (interpParam x m "DRCT" (s.drct.getD (i - 1) m) (s.drct.getD k m)),
                      sped := s.sped.set i (interpParam x m "SPED" (s.sped.getD (i - 1) m) (s.sped.getD k m)) }
  | .dwpt => { s with dwpt := s.dwpt.set i (interpParam x m "DWPT" (s.dwpt.getD (i - 1) m) (s.dwpt.getD k m)) }

theorem fillMissing_eq (c : Calc α) (r : Recipe) (s : Snd α) (m : α) (n i k : Nat) (hs : s.Size n) (hi : i < n) (hk : k < n) (hk0 : k ≠ 0) :
    fillMissing c r s m i k =
      if strictlyBetween (s.pres.getD (i - 1) m) (s.pres.getD k m) (s.pres.getD i m) ∧ 0 < s.pres.getD (i - 1) m ∧ 0 < s.pres.getD k m then
        .ok (filled r s m (c.log (s.pres.getD i m / s.pres.getD (i - 1) m) / c.log (s.pres.getD k m / s.pres.getD (i - 1) m)) i k)
      else .error (.raised .valueError) := by
  unfold fillMissing
  rw [if_pos hk0, levelAt_ok hs (by omega) m, ok_bind, levelAt_ok hs hk m, ok_bind, idx_ok (by rw [hs.pres]; exact hi) m, ok_bind, interp_six]
  by_cases h1 : strictlyBetween (s.pres.getD (i - 1) m) (s.pres.getD k m) (s.pres.getD i m)
  · rw [if_neg (by simpa using h1)]
    by_cases h2 : s.pres.getD (i - 1) m ≤ 0 ∨ s.pres.getD k m ≤ 0
    · rw [if_pos h2, if_neg (by rintro ⟨_, a, b⟩; rcases h2 with h | h; exacts [absurd a (not_lt.mpr h), absurd b (not_lt.mpr h)])]
      rfl
    · rw [if_neg h2, if_pos ⟨h1, by push Not at h2; exact h2⟩]
      dsimp only [lift]
      rw [ok_bind]
      cases r
      · show (put s.temp i _ >>= fun t => (put s.dwpt i _ >>= fun d => _)) = _
        rw [put_ok (by rw [hs.temp]; exact hi), ok_bind, put_ok (by rw [hs.dwpt]; exact hi), ok_bind]
        rfl
      · show (put s.drct i _ >>= fun t => (put s.sped i _ >>= fun d => _)) = _
        rw [put_ok (by rw [hs.drct]; exact hi), ok_bind, put_ok (by rw [hs.sped]; exact hi), ok_bind]
        rfl
      · show (put s.dwpt i _ >>= fun t => _) = _
        rw [put_ok (by rw [hs.dwpt]; exact hi), ok_bind]
        rfl
  · rw [if_pos h1, if_neg (fun h => h1 h.1)]
    rfl

omit [FloorRing α] in
theorem findAbove_spec (col : List α) (m : α) (n : Nat) (hc : col.length = n) (N k : Nat) (hN : n ≤ k + N) (hk : k < n) :
    (∃ b, findAbove col m n N k = .ok (some b) ∧ k ≤ b ∧ b < n ∧ col.getD b m ≠ m ∧ ∀ j, k ≤ j → j < b → col.getD j m = m) ∨
      (findAbove col m n N k = .ok none ∧ ∀ j, k ≤ j → col.getD j m = m) := by
  induction N generalizing k with
  | zero => omega
  | succ N ih =>
    rw [findAbove, idx_ok (by omega) m, ok_bind]
    by_cases hv : col.getD k m ≠ m
    · rw [if_pos hv]
      exact Or.inl ⟨k, rfl, le_refl _, hk, hv, fun j h1 h2 => by omega⟩
    · rw [if_neg hv]
      push Not at hv
      by_cases he : n ≤ k + 1
      · rw [if_pos he]
        refine Or.inr ⟨rfl, fun j hj => ?_⟩
        by_cases e : j = k
        · rw [e]; exact hv
        · exact getD_ge _ _ _ (by omega)
      · rw [if_neg he]
        rcases ih (k + 1) (by omega) (by omega) with ⟨b, e1, e2, e3, e4, e5⟩ | ⟨e1, e2⟩
        · refine Or.inl ⟨b, e1, by omega, e3, e4, fun j h1 h2 => ?_⟩
          by_cases e : j = k
          · rw [e]; exact hv
          · exact e5 j (by omega) h2
        · refine Or.inr ⟨e1, fun j hj => ?_⟩
          by_cases e : j = k
          · rw [e]; exact hv
          · exact e2 j (by omega)

/-- Knowledge about the level above carried from round to round. -/
def AboveInv (r : Recipe) (s : Snd α) (m : α) (n i ia : Nat) : Prop :=
  ia < n ∧ (i < ia → (r.column s).getD ia m ≠ m ∧ ∀ j, i < j → j < ia → (r.column s).getD j m = m)

omit [FloorRing α] in
theorem levelAbove_spec {r : Recipe} {s : Snd α} {m : α} {n i ia : Nat} (hs : s.Size n) (hi : i + 1 < n) (hia : AboveInv r s m n i ia) :
    (∃ b, levelAbove r s m n i ia = .ok (b, true) ∧ i < b ∧ b < n ∧ (r.column s).getD b m ≠ m ∧
        ∀ j, i < j → j < b → (r.column s).getD j m = m) ∨
      (levelAbove r s m n i ia = .ok (0, false) ∧ ∀ j, i < j → (r.column s).getD j m = m) := by
  unfold levelAbove
  by_cases h : ia ≤ i
  · rw [if_pos h]
    rcases findAbove_spec (r.column s) m n (column_length hs) n (i + 1) (by omega) hi with ⟨b, e1, e2, e3, e4, e5⟩ | ⟨e1, e2⟩
    · rw [e1]
      exact Or.inl ⟨b, rfl, by omega, e3, e4, fun j h1 h2 => e5 j (by omega) h2⟩
    · rw [e1]
      exact Or.inr ⟨rfl, fun j hj => e2 j (by omega)⟩
  · rw [if_neg h]
    obtain ⟨a, b⟩ := hia.2 (by omega)
    exact Or.inl ⟨ia, rfl, by omega, hia.1, a, b⟩

omit [FloorRing α] in
/-- The crossing test gives the level found, or none; only dew points have the test. -/
theorem crossTest_spec (r : Recipe) (s : Snd α) (n i k : Nat) (hs : s.Size n) (hi : i < n) (hk : k < n) :
    crossTest r s i k = .ok k ∨ (r = .dwpt ∧ crossTest r s i k = .ok 0) := by
  unfold crossTest
  split
  · rename_i h
    rw [idx_ok (by rw [hs.pres]; omega) 0, ok_bind]
    split
    · rw [idx_ok (by rw [hs.pres]; omega) 0, ok_bind]
      split
      · exact Or.inr ⟨h.1, rfl⟩
      · exact Or.inl rfl
    · exact Or.inl rfl
  · exact Or.inl rfl

theorem missingLoop_raises (c : Calc α) (r : Recipe) (m : α) (n N i ia : Nat) (s : Snd α) (hs : s.Size n) (hi0 : i ≠ 0) (hi : i + N + 1 ≤ n)
    (hia : ia < n) : (∃ s', missingLoop c r m n N i ia s = .ok s') ∨ missingLoop c r m n N i ia s = .error (.raised .valueError) := by
  induction N generalizing i ia s with
  | zero => exact Or.inl ⟨s, rfl⟩
  | succ N ih =>
    rw [missingLoop, idx_ok (by rw [column_length hs]; omega) m, ok_bind]
    split
    · rename_i hv
      have : ∃ b more, b < n ∧ levelAbove r s m n i ia = .ok (b, more) := by
        unfold levelAbove
        split
        · rcases findAbove_spec (r.column s) m n (column_length hs) n (i + 1) (by omega) (by omega) with ⟨b, e1, _, e3, _⟩ | ⟨e1, _⟩
          · rw [e1]; exact ⟨b, true, e3, rfl⟩
          · rw [e1]; exact ⟨0, false, by omega, rfl⟩
        · exact ⟨ia, true, hia, rfl⟩
      obtain ⟨b, more, hb, e⟩ := this
      rw [e, ok_bind]
      have : ∃ k, k < n ∧ crossTest r s i b = .ok k := by
        rcases crossTest_spec r s n i b hs (by omega) hb with h | ⟨_, h⟩
        · exact ⟨b, hb, h⟩
        · exact ⟨0, by omega, h⟩
      obtain ⟨k, hk, e⟩ := this
      dsimp only
      rw [e, ok_bind]
      by_cases hk0 : k = 0
      · subst hk0
        rw [show fillMissing c r s m i 0 = .ok s from rfl, ok_bind]
        cases more
        · exact Or.inl ⟨s, rfl⟩
        · exact ih (i + 1) 0 s hs (by omega) (by omega) hk
      · rw [fillMissing_eq c r s m n i k hs (by omega) hk hk0]
        split
        · rename_i hc
          have hf := fillMissing_eq c r s m n i k hs (by omega) hk hk0
          rw [if_pos hc] at hf
          have kl := fillMissing_keeps hs hi0 (by omega) hv hf
          rw [ok_bind]
          cases more
          · exact Or.inl ⟨_, rfl⟩
          · exact ih (i + 1) k _ kl.size (by omega) (by omega) hk
        · exact Or.inr rfl
    · exact ih (i + 1) ia s hs (by omega) (by omega) hia

/-- C50: on columns of one length the only exception is `ValueError` (pressures out of order around a gap). -/
theorem C50_raises (c : Calc α) (m : α) (s : Snd α) (n : Nat) (hs : s.Size n) :
    (∃ s', interpMissingData c m s = .ok s') ∨ interpMissingData c m s = .error (.raised .valueError) := by
  unfold interpMissingData
  dsimp only
  rw [hs.pres]
  by_cases hn : n < 2
  · rw [show n - 2 = 0 by omega]
    exact Or.inl ⟨s, rfl⟩
  · rcases missingLoop_raises c .temp m n (n - 2) 1 0 s hs (by omega) (by omega) (by omega) with ⟨s1, h1⟩ | h1
    · have k1 := missingLoop_keeps hs (by omega) (by omega) h1
      rw [h1, ok_bind]
      rcases missingLoop_raises c .drct m n (n - 2) 1 0 s1 k1.size (by omega) (by omega) (by omega) with ⟨s2, h2⟩ | h2
      · have k2 := missingLoop_keeps k1.size (by omega) (by omega) h2
        rw [h2, ok_bind]
        exact missingLoop_raises c .dwpt m n (n - 2) 1 0 s2 k2.size (by omega) (by omega) (by omega)
      · rw [h2]; exact Or.inr rfl
    · rw [h1]; exact Or.inr rfl

/-- Pressures are positive and fall from level to level. -/
def Spec.Falling (P : List α) (m : α) (n : Nat) : Prop := ∀ i j, i < j → j < n → 0 < P.getD j m ∧ 0 < P.getD i m ∧ P.getD j m < P.getD i m

omit [FloorRing α] in
theorem falling_between {P : List α} {m : α} {n i k : Nat} (h : Falling P m n) (hi0 : i ≠ 0) (hik : i < k) (hk : k < n) :
    strictlyBetween (P.getD (i - 1) m) (P.getD k m) (P.getD i m) ∧ 0 < P.getD (i - 1) m ∧ 0 < P.getD k m := by
  have h1 := h (i - 1) i (by omega) (by omega)
  have h2 := h i k hik hk
  exact ⟨Or.inr ⟨h2.2.2.trans h1.2.2, h2.2.2, h1.2.2⟩, h1.2.1, h2.1⟩

omit [FloorRing α] in
theorem AboveInv.of_zero {r : Recipe} {s : Snd α} {m : α} {n i : Nat} (h : 0 < n) : AboveInv r s m n i 0 :=
  ⟨h, fun e => absurd e (by omega)⟩

theorem filled_column (r : Recipe) (s : Snd α) (m x : α) (n i k j : Nat) (hs : s.Size n) (hi : i < n) (hj : j ≠ i) :
    (r.column (filled r s m x i k)).getD j m = (r.column s).getD j m := by
  cases r
  · exact set_same hs.temp hi hj
  · exact set_same hs.drct hi hj
  · exact set_same hs.dwpt hi hj

theorem missingLoop_total (c : Calc α) (r : Recipe) (m : α) (n N i ia : Nat) (s : Snd α) (hs : s.Size n) (hi0 : i ≠ 0) (hi : i + N + 1 ≤ n)
    (hp : Falling s.pres m n) (hia : AboveInv r s m n i ia) : ∃ s', missingLoop c r m n N i ia s = .ok s' := by
  induction N generalizing i ia s with
  | zero => exact ⟨s, rfl⟩
  | succ N ih =>
    rw [missingLoop, idx_ok (by rw [column_length hs]; omega) m, ok_bind]
    split
    · rename_i hv
      rcases levelAbove_spec hs (by omega) hia with ⟨b, e, h1, h2, h3, h4⟩ | ⟨e, h1⟩
      · rw [e, ok_bind]
        dsimp only
        rcases crossTest_spec r s n i b hs (by omega) h2 with e | ⟨_, e⟩
        · have hf := fillMissing_eq c r s m n i b hs (by omega) h2 (by omega)
          rw [if_pos (falling_between hp hi0 h1 h2)] at hf
          have kl := fillMissing_keeps hs hi0 (by omega) hv hf
          rw [e, ok_bind, hf, ok_bind, if_pos rfl]
          refine ih (i + 1) b _ kl.size (by omega) (by omega) (by rw [kl.others.1]; exact hp) ⟨h2, fun h => ⟨?_, fun j h5 h6 => ?_⟩⟩
          · rw [filled_column _ _ _ _ n _ _ _ hs (by omega) (by omega)]; exact h3
          · rw [filled_column _ _ _ _ n _ _ _ hs (by omega) (by omega)]; exact h4 j (by omega) h6
        · rw [e, ok_bind]
          rw [show fillMissing c r s m i 0 = .ok s from rfl, ok_bind, if_pos rfl]
          exact ih (i + 1) 0 s hs (by omega) (by omega) hp (AboveInv.of_zero (by omega))
      · rw [e, ok_bind]
        dsimp only
        have : crossTest r s i 0 = .ok 0 := by rcases crossTest_spec r s n i 0 hs (by omega) (by omega) with h | ⟨_, h⟩ <;> exact h
        rw [this, ok_bind, show fillMissing c r s m i 0 = .ok s from rfl, ok_bind]
        exact ⟨s, rfl⟩
    · exact ih (i + 1) ia s hs (by omega) (by omega) hp ⟨hia.1, fun h => ⟨(hia.2 (by omega)).1, fun j h1 h2 => (hia.2 (by omega)).2 j (by omega) h2⟩⟩

/-- C50: with positive, strictly falling pressures the filling succeeds. -/
theorem C50_succeeds (c : Calc α) (m : α) (s : Snd α) (n : Nat) (hs : s.Size n) (hp : Falling s.pres m n) :
    ∃ s', interpMissingData c m s = .ok s' := by
  unfold interpMissingData
  dsimp only
  rw [hs.pres]
  by_cases hn : n < 2
  · rw [show n - 2 = 0 by omega]
    exact ⟨s, rfl⟩
  · obtain ⟨s1, h1⟩ := missingLoop_total c .temp m n (n - 2) 1 0 s hs (by omega) (by omega) hp (AboveInv.of_zero (by omega))
    have k1 := missingLoop_keeps hs (by omega) (by omega) h1
    obtain ⟨s2, h2⟩ := missingLoop_total c .drct m n (n - 2) 1 0 s1 k1.size (by omega) (by omega) (by rw [k1.others.1]; exact hp)
      (AboveInv.of_zero (by omega))
    have k2 := missingLoop_keeps k1.size (by omega) (by omega) h2
    rw [h1, ok_bind, h2, ok_bind]
    exact missingLoop_total c .dwpt m n (n - 2) 1 0 s2 k2.size (by omega) (by omega) (by rw [k2.others.1, k1.others.1]; exact hp)
      (AboveInv.of_zero (by omega))

end

/-! ## Filled temperatures -/

/-- `a` and `b` are the next levels with a value below and above `j`. -/
structure Spec.Around {α : Type} (T : List α) (m : α) (a j b : Nat) : Prop where
  below : a < j
  above : j < b
  low : T.getD a m ≠ m
  high : T.getD b m ≠ m
  next : ∀ k, a < k → k < b → T.getD k m = m

/-- Value at pressure `p` on the line over log pressure through two levels. -/
noncomputable def Spec.onLine (pa ta pb tb p : ℝ) : ℝ := ta + (tb - ta) * ((Real.log p - Real.log pa) / (Real.log pb - Real.log pa))

/-- What the temperature of level `j` has to be after filling: present values stay, a gap between two present values is filled from the
line through these two, everything else stays missing. -/
structure Spec.Filled (P T : List ℝ) (m : ℝ) (j : Nat) (v : ℝ) : Prop where
  kept : T.getD j m ≠ m → v = T.getD j m
  line : ∀ a b, Around T m a j b → v = onLine (P.getD a m) (T.getD a m) (P.getD b m) (T.getD b m) (P.getD j m)
  none : T.getD j m = m → ((∀ k, k < j → T.getD k m = m) ∨ (∀ k, j < k → T.getD k m = m)) → v = m

theorem nearest_below (T : List ℝ) (m : ℝ) (j : Nat) (h : ∃ k, k < j ∧ T.getD k m ≠ m) :
    ∃ a, a < j ∧ T.getD a m ≠ m ∧ ∀ k, a < k → k < j → T.getD k m = m := by
  induction j with
  | zero => obtain ⟨k, h, _⟩ := h; omega
  | succ j ih =>
    by_cases hj : T.getD j m ≠ m
    · exact ⟨j, by omega, hj, fun k h1 h2 => by omega⟩
    · push Not at hj
      obtain ⟨k, h1, h2⟩ := h
      obtain ⟨a, e1, e2, e3⟩ := ih ⟨k, by rcases Nat.lt_or_ge k j with e | e; exact e; exact absurd (by rw [show k = j by omega]; exact hj) h2, h2⟩
      refine ⟨a, by omega, e2, fun k h1 h2 => ?_⟩
      by_cases e : k = j
      · rw [e]; exact hj
      · exact e3 k h1 (by omega)

/-- The line between present values stays above the missing value. -/
theorem onLine_gt {m pa ta pb tb p : ℝ} (ha : m < ta) (hb : m < tb) (h0 : 0 < pb) (h1 : pb < p) (h2 : p < pa) : m < onLine pa ta pb tb p := by
  have l1 := Real.log_lt_log h0 h1
  have l2 := Real.log_lt_log (h0.trans h1) h2
  unfold onLine
  have e : (Real.log p - Real.log pa) / (Real.log pb - Real.log pa) = (Real.log pa - Real.log p) / (Real.log pa - Real.log pb) := by
    rw [← neg_div_neg_eq]; congr 1 <;> ring
  rw [e]
  have t0 : 0 < (Real.log pa - Real.log p) / (Real.log pa - Real.log pb) := div_pos (by linarith) (by linarith)
  have t1 : (Real.log pa - Real.log p) / (Real.log pa - Real.log pb) < 1 := (div_lt_one (by linarith)).mpr (by linarith)
  generalize (Real.log pa - Real.log p) / (Real.log pa - Real.log pb) = t at *
  nlinarith

/-- A second interpolation from a point of the line stays on the line. -/
theorem onLine_onLine {pa ta pb tb q p : ℝ} (h0 : 0 < pb) (hq : pb < q) (hqa : q < pa) :
    onLine q (onLine pa ta pb tb q) pb tb p = onLine pa ta pb tb p := by
  have l1 := Real.log_lt_log h0 hq
  have l2 := Real.log_lt_log (h0.trans hq) hqa
  unfold onLine
  have d1 : Real.log pb - Real.log q ≠ 0 := by linarith
  have d2 : Real.log pb - Real.log pa ≠ 0 := by linarith
  field_simp
  ring

/-- Invariant of the loop over the temperatures before level `i`. -/
structure TempInv (s0 s : Snd ℝ) (m : ℝ) (n i : Nat) : Prop where
  size : s.Size n
  pres : s.pres = s0.pres
  done : ∀ j, j < i → Filled s0.pres s0.temp m j (s.temp.getD j m)
  rest : ∀ j, i ≤ j → s.temp.getD j m = s0.temp.getD j m

theorem tempLoop (m : ℝ) (n : Nat) (s0 : Snd ℝ) (hp : Falling s0.pres m n) (ht : ∀ k, s0.temp.getD k m ≠ m → m < s0.temp.getD k m)
    (h0 : s0.Size n) (N i ia : Nat) (s s' : Snd ℝ) (hi0 : i ≠ 0) (hi : i + N + 1 = n) (inv : TempInv s0 s m n i)
    (hia : AboveInv .temp s m n i ia) (h : missingLoop realCalc .temp m n N i ia s = .ok s') :
    ∀ j, Filled s0.pres s0.temp m j (s'.temp.getD j m) := by
  have rest : ∀ j, n ≤ j + 1 → Filled s0.pres s0.temp m j (s0.temp.getD j m) := by
    intro j hj
    refine ⟨fun _ => rfl, fun a b hab => ?_, fun e _ => e⟩
    exact absurd (getD_ge s0.temp b m (by rw [h0.temp]; have := hab.above; omega)) hab.high
  induction N generalizing i ia s with
  | zero =>
    obtain rfl := Except.ok.inj h
    intro j
    by_cases hj : j < i
    · exact inv.done j hj
    · rw [inv.rest j (by omega)]
      exact rest j (by omega)
  | succ N ih =>
    rw [missingLoop, idx_ok (by rw [column_length inv.size]; omega) m, ok_bind] at h
    split at h
    · rename_i hv
      have hv0 : s0.temp.getD i m = m := by rw [← inv.rest i (le_refl _)]; exact hv
      rcases levelAbove_spec inv.size (by omega) hia with ⟨b, e, h1, h2, h3, h4⟩ | ⟨e, h1⟩
      · rw [e, ok_bind] at h
        dsimp only at h
        have e : crossTest .temp s i b = .ok b := by
          rcases crossTest_spec .temp s n i b inv.size (by omega) h2 with e | ⟨e, _⟩
          · exact e
          · cases e
        have hf := fillMissing_eq realCalc .temp s m n i b inv.size (by omega) h2 (by omega)
        rw [if_pos (falling_between (by rw [inv.pres]; exact hp) hi0 h1 h2)] at hf
        have kl := fillMissing_keeps inv.size hi0 (by omega) hv hf
        rw [e, ok_bind, hf, ok_bind, if_pos rfl] at h
        have hb0 : s0.temp.getD b m ≠ m := by rw [← inv.rest b (by omega)]; exact h3
        have hg0 : ∀ k, i < k → k < b → s0.temp.getD k m = m := fun k k1 k2 => by rw [← inv.rest k (by omega)]; exact h4 k k1 k2
        refine ih (i + 1) b _ (by omega) (by omega) ⟨kl.size, by rw [kl.others.1]; exact inv.pres, ?_, ?_⟩
          ⟨h2, fun h => ⟨?_, fun j h5 h6 => ?_⟩⟩ h
        · intro j hj
          by_cases ej : j = i
          · subst ej
            show Filled _ _ _ _ ((s.temp.set j _).getD j m)
            rw [getD_set _ _ _ _ _ (by rw [inv.size.temp]; omega), if_pos rfl, inv.pres, inv.rest b (by omega)]
            have hprev := inv.done (j - 1) (by omega)
            have f1 := hp (j - 1) j (by omega) (by omega)
            have f2 := hp j b h1 h2
            by_cases hc : ∃ k, k < j ∧ s0.temp.getD k m ≠ m
            · obtain ⟨a, a1, a2, a3⟩ := nearest_below _ _ _ hc
              have har : Around s0.temp m a j b := ⟨a1, h1, a2, hb0, fun k k1 k2 => by
                rcases Nat.lt_trichotomy k j with e | e | e
                · exact a3 k k1 e
                · rw [e]; exact hv0
                · exact hg0 k e k2⟩
              have hval : s.temp.getD (j - 1) m ≠ m ∧
                  onLine (s0.pres.getD (j - 1) m) (s.temp.getD (j - 1) m) (s0.pres.getD b m) (s0.temp.getD b m) (s0.pres.getD j m) =
                    onLine (s0.pres.getD a m) (s0.temp.getD a m) (s0.pres.getD b m) (s0.temp.getD b m) (s0.pres.getD j m) := by
                by_cases ea : a = j - 1
                · rw [hprev.kept (by rw [← ea]; exact a2), ea]
                  exact ⟨by rw [← ea]; exact a2, rfl⟩
                · have g1 := hp a (j - 1) (by omega) (by omega)
                  have g2 := hp (j - 1) b (by omega) h2
                  rw [hprev.line a b ⟨by omega, by omega, a2, hb0, fun k k1 k2 => har.next k k1 k2⟩]
                  exact ⟨(onLine_gt (ht a a2) (ht b hb0) g2.1 g2.2.2 g1.2.2).ne', onLine_onLine g2.1 g2.2.2 g1.2.2⟩
              have hpar : interpParam (realCalc.log (s0.pres.getD j m / s0.pres.getD (j - 1) m) / realCalc.log (s0.pres.getD b m / s0.pres.getD (j - 1) m))
                  m "TEMP" (s.temp.getD (j - 1) m) (s0.temp.getD b m) =
                  onLine (s0.pres.getD (j - 1) m) (s.temp.getD (j - 1) m) (s0.pres.getD b m) (s0.temp.getD b m) (s0.pres.getD j m) := by
                unfold interpParam onLine realCalc
                rw [if_neg (by rintro (h | h); exacts [hval.1 h.symm, hb0 h.symm]), if_neg (by decide)]
                dsimp only
                rw [Real.log_div f1.1.ne' f1.2.1.ne', Real.log_div f2.1.ne' f1.2.1.ne']
              rw [hpar, hval.2]
              refine ⟨fun h => absurd hv0 h, fun a' b' hab => ?_, fun _ h => ?_⟩
              · have ea : a' = a := by
                  rcases Nat.lt_trichotomy a' a with e | e | e
                  · exact absurd (hab.next a e (by have := hab.above; omega)) a2
                  · exact e
                  · exact absurd (a3 a' e hab.below) hab.low
                have eb : b' = b := by
                  rcases Nat.lt_trichotomy b' b with e | e | e
                  · exact absurd (hg0 b' hab.above e) hab.high
                  · exact e
                  · exact absurd (hab.next b (by have := hab.below; omega) e) hb0
                rw [ea, eb]
              · rcases h with h | h
                · exact absurd (h a a1) a2
                · exact absurd (h b h1) hb0
            · push Not at hc
              have : s.temp.getD (j - 1) m = m := hprev.none (hc _ (by omega)) (Or.inl fun k hk => hc k (by omega))
              rw [this]
              unfold interpParam
              rw [if_pos (Or.inl rfl)]
              exact ⟨fun h => absurd hv0 h, fun a' b' hab => absurd (hc a' hab.below) hab.low, fun _ _ => rfl⟩
          · show Filled _ _ _ _ ((s.temp.set i _).getD j m)
            rw [set_same inv.size.temp (by omega) ej]
            exact inv.done j (by omega)
        · intro j hj
          show (s.temp.set i _).getD j m = _
          rw [set_same inv.size.temp (by omega) (by omega)]
          exact inv.rest j (by omega)
        · rw [filled_column _ _ _ _ n _ _ _ inv.size (by omega) (by omega)]; exact h3
        · rw [filled_column _ _ _ _ n _ _ _ inv.size (by omega) (by omega)]; exact h4 j (by omega) h6
      · rw [e, ok_bind] at h
        dsimp only at h
        have : crossTest .temp s i 0 = .ok 0 := by
          rcases crossTest_spec .temp s n i 0 inv.size (by omega) (by omega) with h | ⟨_, h⟩ <;> exact h
        rw [this, ok_bind, show fillMissing realCalc .temp s m i 0 = .ok s from rfl, ok_bind] at h
        obtain rfl := Except.ok.inj h
        intro j
        by_cases hj : j < i
        · exact inv.done j hj
        · have hall : ∀ k, i ≤ k → s0.temp.getD k m = m := by
            intro k hk
            by_cases e : k = i
            · rw [e]; exact hv0
            · rw [← inv.rest k hk]; exact h1 k (by omega)
          rw [inv.rest j (by omega)]
          exact ⟨fun _ => rfl, fun a b hab => absurd (hall b (by have := hab.above; omega)) hab.high, fun e _ => e⟩
    · rename_i hv
      refine ih (i + 1) ia s (by omega) (by omega) ⟨inv.size, inv.pres, fun j hj => ?_, fun j hj => inv.rest j (by omega)⟩
        ⟨hia.1, fun h => ⟨(hia.2 (by omega)).1, fun j h1 h2 => (hia.2 (by omega)).2 j (by omega) h2⟩⟩ h
      by_cases ej : j = i
      · subst ej
        have hv0 : s0.temp.getD j m ≠ m := by rw [← inv.rest j (le_refl _)]; exact hv
        rw [inv.rest j (le_refl _)]
        exact ⟨fun _ => rfl, fun a b hab => absurd (hab.next j hab.below hab.above) hv0, fun e _ => e⟩
      · exact inv.done j (by omega)

/-- C50: with positive, strictly falling pressures every gap in the temperatures between two present ones is filled from the line over log
pressure through these two; all other temperatures stay. -/
theorem C50_temperature (m : ℝ) (n : Nat) (s : Snd ℝ) (hs : s.Size n) (hp : Falling s.pres m n)
    (ht : ∀ k, s.temp.getD k m ≠ m → m < s.temp.getD k m) :
    ∃ s', interpMissingData realCalc m s = .ok s' ∧ ∀ j, Filled s.pres s.temp m j (s'.temp.getD j m) := by
  obtain ⟨s', h⟩ := C50_succeeds realCalc m s n hs hp
  refine ⟨s', h, ?_⟩
  unfold interpMissingData at h
  dsimp only at h
  rw [hs.pres] at h
  have first : ∀ j, j < 1 → Filled s.pres s.temp m j (s.temp.getD j m) := by
    intro j hj
    exact ⟨fun _ => rfl, fun a b hab => absurd hab.below (by omega), fun e _ => e⟩
  by_cases hn : n < 2
  · rw [show n - 2 = 0 by omega] at h
    have : s' = s := (Except.ok.inj h).symm
    subst this
    intro j
    by_cases hj : j < 1
    · exact first j hj
    · have : s'.temp.getD j m = m := getD_ge _ _ _ (by rw [hs.temp]; omega)
      exact ⟨fun _ => rfl, fun a b hab => absurd (getD_ge _ _ _ (by rw [hs.temp]; have := hab.above; omega)) hab.high, fun e _ => e⟩
  · obtain ⟨s1, h1, h⟩ := run_inv h
    obtain ⟨s2, h2, h3⟩ := run_inv h
    have k1 := missingLoop_keeps hs (by omega) (by omega) h1
    have k2 := missingLoop_keeps k1.size (by omega) (by omega) h2
    have k3 := missingLoop_keeps k2.size (by omega) (by omega) h3
    have hall := tempLoop m n s hp ht hs (n - 2) 1 0 s s1 (by omega) (by omega) ⟨hs, rfl, first, fun _ _ => rfl⟩ (AboveInv.of_zero (by omega)) h1
    rw [k3.others.2.2.1, k2.others.2.2.1]
    exact hall

/-- A sounding with a gap of two levels. -/
noncomputable def fillSample : Snd ℝ :=
  ⟨[1000, 900, 800, 700], [0, 1, 2, 3], [20, -9999, -9999, 5], [1, 1, 1, 1], [0, 0, 0, 0], [0, 0, 0, 0]⟩

example : fillSample.Size 4 ∧ Falling fillSample.pres (-9999) 4 ∧ Around fillSample.temp (-9999) 0 2 3 ∧
    (∀ k, fillSample.temp.getD k (-9999) ≠ -9999 → -9999 < fillSample.temp.getD k (-9999)) := by
  refine ⟨⟨rfl, rfl, rfl, rfl, rfl, rfl⟩, ?_, ⟨by omega, by omega, ?_, ?_, ?_⟩, ?_⟩
  · intro i j h1 h2
    have : i < 4 := by omega
    interval_cases j <;> interval_cases i <;> simp [fillSample] <;> norm_num
  · simp [fillSample]; norm_num
  · simp [fillSample]; norm_num
  · intro k h1 h2; interval_cases k <;> simp [fillSample]
  · intro k hk
    have : k < 4 := getD_ne_lt hk
    interval_cases k <;> simp [fillSample] at hk ⊢ <;> norm_num

end Gempak
