import Verif.Proof.MergeWindFrom
import Mathlib.Tactic.Linarith
import Mathlib.Tactic.Ring
import Mathlib.Tactic.Push

/-!
# C118: no wind of a merged sounding is invented
-/

namespace Gempak

set_option linter.unusedSectionVars false

open Spec

section
variable {α : Type} [Field α] [LinearOrder α] {m : α} {ps : SndParts α}

/-! ## Winds on heights -/

/-- The winds of a level while those on heights are merged: at a level without pressure they are given for a height. -/
structure Wind2 (ps : SndParts α) (m p z r w : α) : Prop where
  given : GivenWind ps m p r w
  miss : p = m → z ≠ m → r ≠ m ∨ w ≠ m → HeightWind ps m r w

theorem zPlace_winds {a r w : α} {s : Snd α} {v : ZVars α} {q : Snd α × ZVars α × Bool} (hw : HeightWind ps m r w) (hs : AllWinds (Wind2 ps m) m s)
    (h : zPlace m a r w s v = .ok q) : AllWinds (Wind2 ps m) m q.1 := by
  unfold zPlace at h
  split at h
  · obtain rfl := Except.ok.inj h; exact hs
  · split at h
    · obtain ⟨_, _, h⟩ := run_inv h
      obtain ⟨_, _, h⟩ := run_inv h
      split at h
      · obtain ⟨_, h1, h⟩ := run_inv h
        obtain ⟨_, h2, h⟩ := run_inv h
        obtain rfl := Except.ok.inj h
        exact hs.store h1 h2 ⟨fun _ => Or.inr hw, fun _ _ _ => hw⟩
      · obtain rfl := Except.ok.inj h; exact hs
    · split at h
      · obtain ⟨_, _, h⟩ := run_inv h
        obtain rfl := Except.ok.inj h; exact hs
      · obtain rfl := Except.ok.inj h; exact hs

theorem zStore_winds {a r w : α} {s : Snd α} {v : ZVars α} {q : Snd α × ZVars α} (hw : HeightWind ps m r w) (hz : Same s)
    (hs : AllWinds (Wind2 ps m) m s) (h : zStore m a r w s v = .ok q) : AllWinds (Wind2 ps m) m q.1 := by
  unfold zStore at h
  split at h
  · obtain ⟨_, _, h⟩ := run_inv h
    obtain ⟨_, _, h⟩ := run_inv h
    split at h
    · obtain ⟨_, h1, h⟩ := run_inv h
      obtain ⟨_, h2, h⟩ := run_inv h
      obtain rfl := Except.ok.inj h
      exact hs.store h1 h2 ⟨fun _ => Or.inr hw, fun _ _ _ => hw⟩
    · obtain rfl := Except.ok.inj h; exact hs
  · obtain rfl := Except.ok.inj h
    exact hs.insert hz _ ⟨fun _ => Or.inr hw, fun _ _ _ => hw⟩

theorem zLoop_winds {b d : Option (SndPart α)} {x y N i e : Nat} {above : Bool} {s : Snd α} {v : ZVars α} {r : Snd α × ZVars α}
    (hb : 1 ≤ x → ∀ q, b = some q → ∃ p, WindPart2 ps m "PPBB" x true q p) (hd : 1 ≤ y → ∀ q, d = some q → ∃ p, WindPart2 ps m "PPDD" y true q p)
    (he : e = if above then y else x) (hsz : Same s) (hs : AllWinds (Wind2 ps m) m s) (h : zLoop m b d x y N above i e s v = .ok r) :
    AllWinds (Wind2 ps m) m r.1 := by
  induction N generalizing above i e s v with
  | zero => cases h
  | succ N ih =>
    rw [zLoop] at h
    split at h
    · rename_i hc
      split at h
      · cases h
      · rename_i q hq
        obtain ⟨k, hk, h⟩ := run_inv h
        have hkz := zWind_same hsz hk
        have hks : AllWinds (Wind2 ps m) m k.1 := by
          unfold zWind at hk
          obtain ⟨z, hz, hk⟩ := run_inv hk
          obtain ⟨dr, h1, hk⟩ := run_inv hk
          obtain ⟨sp, h2, hk⟩ := run_inv hk
          obtain ⟨u, hu, hk⟩ := run_inv hk
          have hw : HeightWind ps m dr sp := by
            cases above
            · rw [if_neg (by decide)] at he hq
              obtain ⟨p, hp⟩ := hb (by omega) q hq
              exact hp.height (Or.inl rfl) (by omega) hz h1 h2
            · rw [if_pos rfl] at he hq
              obtain ⟨p, hp⟩ := hd (by omega) q hq
              exact hp.height (Or.inr rfl) (by omega) hz h1 h2
          have hu' := zPlace_winds hw hs hu
          obtain ⟨n, hn⟩ := hsz
          split at hk
          · exact zStore_winds hw ⟨n, zPlace_same hn hu⟩ hu' hk
          · obtain rfl := Except.ok.inj hk; exact hu'
        split at h
        · exact ih rfl hkz hks h
        · exact ih he hkz hks h
    · obtain rfl := Except.ok.inj h; exact hs

theorem mergeZ_winds {c : Calc α} {b d : Bool × Option (SndPart α)} {nb nd : Nat} (hb : windCoord ps m "PPBB" nb = .ok b)
    (hd : windCoord ps m "PPDD" nd = .ok d) {s : Snd α} {r : Snd α × Nat} (hsz : Same s) (hr : AllRows (Row1 NearP ps m) m s)
    (hs : AllWinds (Wind1 ps m) m s) (h : mergeZ c m b.2 d.2 (if b.1 then nb else 0) (if d.1 then nd else 0) s = .ok r) : AllWinds (Wind1 ps m) m r.1 := by
  have hB : 1 ≤ (if b.1 then nb else 0) → ∀ q, b.2 = some q → ∃ p, WindPart2 ps m "PPBB" (if b.1 then nb else 0) true q p := by
    intro h1 q hq
    obtain ⟨p, hp⟩ := windCoord_winds hb hq
    by_cases hz : b.1 = true
    · rw [if_pos hz]
      rw [hz] at hp
      exact ⟨p, hp⟩
    · rw [if_neg hz] at h1
      omega
  have hD : 1 ≤ (if d.1 then nd else 0) → ∀ q, d.2 = some q → ∃ p, WindPart2 ps m "PPDD" (if d.1 then nd else 0) true q p := by
    intro h1 q hq
    obtain ⟨p, hp⟩ := windCoord_winds hd hq
    by_cases hz : d.1 = true
    · rw [if_pos hz]
      rw [hz] at hp
      exact ⟨p, hp⟩
    · rw [if_neg hz] at h1
      omega
  generalize (if b.1 then nb else 0) = x at h hB
  generalize (if d.1 then nd else 0) = y at h hD
  unfold mergeZ at h
  obtain ⟨i, _, h⟩ := run_inv h
  obtain ⟨v, _, h⟩ := run_inv h
  obtain ⟨q, hq, h⟩ := run_inv h
  obtain ⟨s', hp, h⟩ := run_inv h
  obtain rfl := Except.ok.inj h
  have hs2 : AllWinds (Wind2 ps m) m s := fun j => ⟨hs j, fun e1 e2 => absurd ((hr j).miss e1).1 e2⟩
  obtain ⟨hq1, n, hn⟩ : AllWinds (Wind2 ps m) m q.1 ∧ Same q.1 := by
    split at hq
    · exact ⟨zLoop_winds hB hD rfl hsz hs2 hq, zLoop_same hsz hq⟩
    · exact ⟨zLoop_winds hB hD rfl hsz hs2 hq, zLoop_same hsz hq⟩
  obtain ⟨P', e, _, h1, _, h3⟩ := C49_filled c m q.1 n hn.pres hn.hght
  rw [e] at hp
  obtain rfl := Except.ok.inj hp
  intro j
  show GivenWind ps m (P'.getD j m) (q.1.drct.getD j m) (q.1.sped.getD j m)
  have hj := hq1 j
  by_cases hm : q.1.pres.getD j m = m
  · by_cases hz : q.1.hght.getD j m = m
    · rw [h3 j hm (Or.inl hz), ← hm]
      rw [hm]
      have := hj.given
      rw [hm] at this
      exact this
    · exact fun e => Or.inr (hj.miss hm hz e)
  · rw [h1 j hm]
    exact hj.given

/-! ## Gaps -/

/-- Direction `r` lies the fraction `x` of the way from `a` to `b` along the shorter arc. -/
def Spec.TurnedTo (a b x r : α) : Prop :=
  0 ≤ r ∧ r < 360 ∧ ∃ (turn : α) (k n : ℤ), |turn| ≤ 180 ∧ a + turn = b + 360 * k ∧ r = a + x * turn + 360 * n

/-- The wind at level `j` is interpolated, in the logarithm of pressure, between those of a level before and a level after it: the direction
along the shorter arc, the speed along the line. -/
def Spec.WindBetween (c : Calc α) (m : α) (s : Snd α) (j : Nat) : Prop :=
  ∃ a b x, a < j ∧ j < b ∧
    ((s.pres.getD a m < s.pres.getD j m ∧ s.pres.getD j m < s.pres.getD b m) ∨ (s.pres.getD b m < s.pres.getD j m ∧ s.pres.getD j m < s.pres.getD a m)) ∧
    x = c.log (s.pres.getD j m / s.pres.getD a m) / c.log (s.pres.getD b m / s.pres.getD a m) ∧
    (s.drct.getD j m ≠ m → s.drct.getD a m ≠ m ∧ s.drct.getD b m ≠ m ∧ TurnedTo (s.drct.getD a m) (s.drct.getD b m) x (s.drct.getD j m)) ∧
    (s.sped.getD j m ≠ m → s.sped.getD a m ≠ m ∧ s.sped.getD b m ≠ m ∧ s.sped.getD j m = s.sped.getD a m + (s.sped.getD b m - s.sped.getD a m) * x)

theorem mod360_turn [FloorRing α] [IsStrictOrderedRing α] (x : α) : 0 ≤ mod360 x ∧ mod360 x < 360 ∧ ∃ k : ℤ, mod360 x = x + 360 * k := by
  unfold mod360
  have h1 := Int.floor_le (x / 360)
  have h2 := Int.lt_floor_add_one (x / 360)
  refine ⟨?_, ?_, -⌊x / 360⌋, by push_cast; ring⟩
  · rw [le_div_iff₀ (by norm_num)] at h1
    linarith
  · rw [div_lt_iff₀ (by norm_num)] at h2
    linarith

theorem interpDirection_turned [FloorRing α] [IsStrictOrderedRing α] (a b x : α) : TurnedTo a b x (interpDirection a b x) := by
  unfold interpDirection
  obtain ⟨a0, a1, ka, ea⟩ := mod360_turn a
  obtain ⟨b0, b1, kb, eb⟩ := mod360_turn b
  generalize mod360 a = A at *
  generalize mod360 b = B at *
  dsimp only
  have main : ∀ (u v : α) (i j : ℤ), u = A + 360 * i → v = B + 360 * j → |v - u| ≤ 180 → TurnedTo a b x (mod360 (u + (v - u) * x)) := by
    intro u v i j hu hv huv
    obtain ⟨m0, m1, km, em⟩ := mod360_turn (u + (v - u) * x)
    refine ⟨m0, m1, v - u, kb + j - ka - i, ka + i + km, huv, ?_, ?_⟩
    · rw [hu, hv, ea, eb]; push_cast; ring
    · rw [em, hu, ea]; push_cast; ring
  split
  · rename_i hgt
    split
    · rename_i hlt
      refine main (A + 360) B 1 0 (by push_cast; ring) (by push_cast; ring) ?_
      rw [abs_of_neg (by linarith)] at hgt
      rw [abs_le]
      constructor <;> linarith
    · rename_i hlt
      refine main A (B + 360) 0 1 (by push_cast; ring) (by push_cast; ring) ?_
      rw [abs_of_nonneg (by linarith)] at hgt
      rw [abs_le]
      constructor <;> linarith
  · rename_i hle
    rw [not_lt] at hle
    exact main A B 0 0 (by push_cast; ring) (by push_cast; ring) (by rw [abs_sub_comm]; exact hle)

theorem interpParam_turned [FloorRing α] [IsStrictOrderedRing α] {x a b : α} (h : interpParam x m "DRCT" a b ≠ m) :
    a ≠ m ∧ b ≠ m ∧ TurnedTo a b x (interpParam x m "DRCT" a b) := by
  unfold interpParam at h ⊢
  split at h
  · exact absurd rfl h
  · rename_i hc
    rw [if_neg hc, if_pos rfl]
    exact ⟨fun e => hc (Or.inl e.symm), fun e => hc (Or.inr e.symm), interpDirection_turned a b x⟩

theorem missingLoop_wind [FloorRing α] [IsStrictOrderedRing α] {c : Calc α} {n N i ia : Nat} {s s' : Snd α} (hs : s.Size n) (hi0 : i ≠ 0)
    (hi : i + N + 1 ≤ n) (hia : AboveInv .drct s m n i ia) (h : missingLoop c .drct m n N i ia s = .ok s') :
    (∀ k, k < i → SameLevel m s s' k) ∧
      ∀ j, (s'.drct.getD j m = s.drct.getD j m ∧ s'.sped.getD j m = s.sped.getD j m) ∨ WindBetween c m s' j := by
  induction N generalizing i ia s with
  | zero =>
    obtain rfl := Except.ok.inj h
    exact ⟨fun k _ => SameLevel.refl m s k, fun _ => Or.inl ⟨rfl, rfl⟩⟩
  | succ N ih =>
    rw [missingLoop, idx_ok (by rw [column_length hs]; omega) m, ok_bind] at h
    split at h
    · rename_i hv
      rcases levelAbove_spec hs (by omega) hia with ⟨b, e, h1, h2, h3, h4⟩ | ⟨e, h1⟩
      · rw [e, ok_bind] at h
        dsimp only at h
        rcases crossTest_spec .drct s n i b hs (by omega) h2 with e | ⟨_, e⟩
        · have hf := fillMissing_eq c .drct s m n i b hs (by omega) h2 (by omega)
          rw [e, ok_bind, hf] at h
          split at h
          · rename_i hc
            rw [if_pos hc] at hf
            have kl := fillMissing_keeps hs hi0 (by omega) hv hf
            generalize hx : c.log (s.pres.getD i m / s.pres.getD (i - 1) m) / c.log (s.pres.getD b m / s.pres.getD (i - 1) m) = x at h hf kl
            generalize hs1 : filled .drct s m x i b = s1 at h hf kl
            have hsame : ∀ j, j ≠ i → SameLevel m s s1 j := fun j hj => hs1 ▸ filled_level .drct s x n i b j hs (by omega) hj
            rw [ok_bind, if_pos rfl] at h
            have hb1 : (Recipe.drct.column s1).getD b m ≠ m := by rw [(hsame b (by omega)).column .drct]; exact h3
            have ia' : AboveInv .drct s1 m n (i + 1) b :=
              ⟨h2, fun hlt => ⟨hb1, fun j h5 h6 => by rw [(hsame j (by omega)).column .drct]; exact h4 j (by omega) h6⟩⟩
            have kl' := missingLoop_keeps kl.size (by omega) (by omega) h
            obtain ⟨g1, g2⟩ := ih kl.size (by omega) (by omega) ia' h
            have sb : SameLevel m s s' b := (hsame b (by omega)).trans (kl'.same b (Or.inr (Or.inr hb1)))
            have sa : SameLevel m s s' (i - 1) := (hsame (i - 1) (by omega)).trans (g1 (i - 1) (by omega))
            have si := g1 i (by omega)
            have pi : s'.pres.getD i m = s.pres.getD i m := by rw [kl'.others.1, kl.others.1]
            refine ⟨fun k hk => (hsame k (by omega)).trans (g1 k (by omega)), fun j => ?_⟩
            by_cases hji : j = i
            · subst hji
              right
              have ed : s'.drct.getD j m = interpParam x m "DRCT" (s.drct.getD (j - 1) m) (s.drct.getD b m) := by
                rw [si.2.2.2.2.1, ← hs1]
                exact (getD_set _ _ _ _ _ (by rw [hs.drct]; omega)).trans (if_pos rfl)
              have es : s'.sped.getD j m = interpParam x m "SPED" (s.sped.getD (j - 1) m) (s.sped.getD b m) := by
                rw [si.2.2.2.2.2, ← hs1]
                exact (getD_set _ _ _ _ _ (by rw [hs.sped]; omega)).trans (if_pos rfl)
              refine ⟨j - 1, b, x, by omega, h1, ?_, ?_, fun hne => ?_, fun hne => ?_⟩
              · rw [sa.1, sb.1, pi]; exact between_or hc.1
              · rw [sa.1, sb.1, pi, hx]
              · rw [ed] at hne ⊢
                rw [sa.2.2.2.2.1, sb.2.2.2.2.1]
                exact interpParam_turned hne
              · rw [es] at hne ⊢
                rw [sa.2.2.2.2.2, sb.2.2.2.2.2]
                exact interpParam_between (by decide) hne
            · rcases g2 j with ⟨e1, e2⟩ | e
              · exact Or.inl ⟨e1.trans (hsame j hji).2.2.2.2.1, e2.trans (hsame j hji).2.2.2.2.2⟩
              · exact Or.inr e
          · cases h
        · rw [e, ok_bind, show fillMissing c .drct s m i 0 = .ok s from rfl, ok_bind, if_pos rfl] at h
          obtain ⟨g1, g2⟩ := ih hs (by omega) (by omega) (AboveInv.of_zero (by omega)) h
          exact ⟨fun k hk => g1 k (by omega), g2⟩
      · rw [e, ok_bind] at h
        dsimp only at h
        have : crossTest .drct s i 0 = .ok 0 := by rcases crossTest_spec .drct s n i 0 hs (by omega) (by omega) with h | ⟨_, h⟩ <;> exact h
        rw [this, ok_bind, show fillMissing c .drct s m i 0 = .ok s from rfl, ok_bind] at h
        obtain rfl := Except.ok.inj h
        exact ⟨fun k _ => SameLevel.refl m s k, fun _ => Or.inl ⟨rfl, rfl⟩⟩
    · obtain ⟨g1, g2⟩ := ih hs (by omega) (by omega)
        ⟨hia.1, fun h => ⟨(hia.2 (by omega)).1, fun j h1 h2 => (hia.2 (by omega)).2 j (by omega) h2⟩⟩ h
      exact ⟨fun k hk => g1 k (by omega), g2⟩

theorem WindBetween_congr {c : Calc α} {s s' : Snd α} {j : Nat} (h1 : s'.pres = s.pres) (h2 : s'.drct = s.drct) (h3 : s'.sped = s.sped)
    (h : WindBetween c m s j) : WindBetween c m s' j := by
  unfold WindBetween
  rw [h1, h2, h3]
  exact h

/-- C50: a wind that was not there is interpolated between those of two levels around it. -/
theorem C50_winds [FloorRing α] [IsStrictOrderedRing α] (c : Calc α) (m : α) (s s' : Snd α) (n : Nat) (hs : s.Size n)
    (h : interpMissingData c m s = .ok s') (j : Nat) :
    (s'.drct.getD j m = s.drct.getD j m ∧ s'.sped.getD j m = s.sped.getD j m) ∨ WindBetween c m s' j := by
  unfold interpMissingData at h
  dsimp only at h
  by_cases hn : n < 2
  · rw [hs.pres, show n - 2 = 0 by omega] at h
    have : s' = s := (Except.ok.inj h).symm
    subst this
    exact Or.inl ⟨rfl, rfl⟩
  · rw [hs.pres] at h
    obtain ⟨s1, h1, h⟩ := run_inv h
    obtain ⟨s2, h2, h3⟩ := run_inv h
    have k1 := missingLoop_keeps hs (by omega) (by omega) h1
    have k2 := missingLoop_keeps k1.size (by omega) (by omega) h2
    have k3 := missingLoop_keeps k2.size (by omega) (by omega) h3
    obtain ⟨_, t1⟩ := missingLoop_wind k1.size (by omega) (by omega) (AboveInv.of_zero (by omega)) h2
    obtain ⟨p3, _, _, d3, w3⟩ := k3.others
    obtain ⟨_, _, d1, w1⟩ := k1.others
    rcases t1 j with ⟨e1, e2⟩ | e
    · left; rw [d3, w3, e1, e2, d1, w1]; exact ⟨rfl, rfl⟩
    · exact Or.inr (WindBetween_congr p3 d3 w3 e)

/-! ## The result -/

/-- The wind of a level comes from the report, or is interpolated. -/
def Spec.WindFrom (c : Calc α) (m : α) (ps : SndParts α) (s : Snd α) (j : Nat) : Prop :=
  s.drct.getD j m ≠ m ∨ s.sped.getD j m ≠ m →
    WindRead ps (s.pres.getD j m) (s.drct.getD j m) (s.sped.getD j m) ∨ HeightWind ps m (s.drct.getD j m) (s.sped.getD j m) ∨ WindBetween c m s j

theorem insert_windFrom {c : Calc α} {n : Nat} {s : Snd α} (hn : s.Size n) (hs : ∀ j, WindFrom c m ps s j) (loc : Int) {pr z t d r v : α}
    (hw : WindRead ps pr r v) : ∀ j, WindFrom c m ps (s.insert loc pr z t d r v) j := by
  obtain ⟨w, _, g⟩ := insert_getD (m := m) n loc
  have gm : ∀ (l : List α) (v : α), l.length = n → ∀ i, (pyInsert l loc v).getD (if i < w then i else i + 1) m = l.getD i m := by
    intro l v hl i
    rw [g l v hl]
    by_cases hi : i < w
    · rw [if_pos hi, if_pos hi]
    · rw [if_neg hi, if_neg (by omega), if_neg (by omega), Nat.add_sub_cancel]
  intro j
  by_cases hj : j = w
  · subst hj
    have at_w : ∀ (l : List α) (v : α), l.length = n → (pyInsert l loc v).getD j m = v := by
      intro l v hl
      rw [g l v hl, if_neg (by omega), if_pos rfl]
    intro _
    left
    show WindRead ps ((pyInsert s.pres loc pr).getD j m) ((pyInsert s.drct loc r).getD j m) ((pyInsert s.sped loc v).getD j m)
    rw [at_w _ _ hn.pres, at_w _ _ hn.drct, at_w _ _ hn.sped]
    exact hw
  · obtain ⟨j0, rfl⟩ : ∃ j0, j = if j0 < w then j0 else j0 + 1 := by
      by_cases hlt : j < w
      · exact ⟨j, by rw [if_pos hlt]⟩
      · exact ⟨j - 1, by rw [if_neg (by omega)]; omega⟩
    have ep : ∀ i, (s.insert loc pr z t d r v).pres.getD (if i < w then i else i + 1) m = s.pres.getD i m := gm _ _ hn.pres
    have ed : ∀ i, (s.insert loc pr z t d r v).drct.getD (if i < w then i else i + 1) m = s.drct.getD i m := gm _ _ hn.drct
    have es : ∀ i, (s.insert loc pr z t d r v).sped.getD (if i < w then i else i + 1) m = s.sped.getD i m := gm _ _ hn.sped
    intro h
    rw [ed, es] at h
    rw [ep, ed, es]
    rcases hs j0 h with e | e | ⟨a, b, x, ha, hb, h1, h2, h3, h4⟩
    · exact Or.inl e
    · exact Or.inr (Or.inl e)
    · refine Or.inr (Or.inr ⟨if a < w then a else a + 1, if b < w then b else b + 1, x, by split <;> split <;> omega, by split <;> split <;> omega, ?_, ?_, ?_, ?_⟩)
      · rw [ep, ep, ep]; exact h1
      · rw [ep, ep, ep]; exact h2
      · rw [ed, ed, ed]; exact h3
      · rw [es, es, es]; exact h4

theorem below_windFrom {c : Calc α} {p : SndPart α} (hpp : ps.part "TTAA" = some p) {N i : Nat} {s s' : Snd α} {k : Option Nat} (hsz : Same s)
    (hs : ∀ j, WindFrom c m ps s j) (h : mergeBelow p N i s k = .ok s') : ∀ j, WindFrom c m ps s' j := by
  induction N generalizing i s k with
  | zero => obtain rfl := Except.ok.inj h; exact hs
  | succ N ih =>
    rw [mergeBelow] at h
    obtain ⟨pr, hpr, h⟩ := run_inv h
    obtain ⟨p0, _, h⟩ := run_inv h
    split at h
    · split at h
      · cases h
      · dsimp only at h
        obtain ⟨z, _, h⟩ := run_inv h
        obtain ⟨t, _, h⟩ := run_inv h
        obtain ⟨d, _, h⟩ := run_inv h
        obtain ⟨r, hr, h⟩ := run_inv h
        obtain ⟨w, hw, h⟩ := run_inv h
        obtain ⟨n, hn⟩ := hsz
        exact ih ⟨n + 1, insert_size hn _ _ _ _ _ _ _⟩
          (insert_windFrom hn hs _ ⟨"TTAA", by decide, p, i, pr, hpp, Or.inl hpr, hr, hw, Or.inl rfl⟩) h
    · exact ih hsz hs h

/-- C118: whatever a report holds, direction and speed of every level of the merged sounding are a pair the report gives for that pressure, a
pair it gives for a height, or interpolated between the winds of a level before and a level after. -/
theorem C118_winds_from_report [FloorRing α] [IsStrictOrderedRing α] (c : Calc α) (fuel : Nat) (ps : SndParts α) (s : Snd α)
    (hA : ∀ p, ps.part "TTAA" = some p → SixNames p) (hC : ∀ p, ps.part "TTCC" = some p → SixNames p)
    (h : mergeSounding c (-9999) fuel ps = .ok (some s)) (j : Nat) : WindFrom c (-9999) ps s j := by
  obtain ⟨n, b, d, r, s1, s2, s3, s4, s5, s6, st⟩ := merge_stages h
  obtain ⟨rows, z0, z1, z2, z3, z4, z5, z6⟩ := st.from hA hC
  have a0 := mandatory_winds st.lower hA hC st.man
  obtain ⟨a1, _⟩ := pair_from (Q := AllWinds (Wind1 ps (-9999)) (-9999))
    (fun _ _ _ z a e => by obtain ⟨p, hp, e⟩ := withPart_get e; exact trop_winds (pressureWinds_of (name := "TRPA") (by decide) hp) z a e)
    (fun _ _ _ z a e => by obtain ⟨p, hp, e⟩ := withPart_get e; exact trop_winds (pressureWinds_of (name := "TRPC") (by decide) hp) z a e) z0 a0 st.trop
  obtain ⟨a2, _⟩ := pair_from (Q := AllWinds (Wind1 ps (-9999)) (-9999))
    (fun _ _ _ z a e => by obtain ⟨p, hp, e⟩ := withPart_get e; exact sigT_winds z a e)
    (fun _ _ _ z a e => by obtain ⟨p, hp, e⟩ := withPart_get e; exact sigT_winds z a e) z1 a1 st.sigT
  have u := (moist_miss st.moist).1
  have a3 : AllWinds (Wind1 ps (-9999)) (-9999) s3 := Wind1.others a2 (by rw [u]) (by rw [u]) (by rw [u])
  obtain ⟨a4, _⟩ := pair_from (Q := AllWinds (Wind1 ps (-9999)) (-9999))
    (fun _ _ _ z a e => by
      obtain ⟨q, hq, e⟩ := withOpt_get e
      obtain ⟨p, hp⟩ := windCoord_winds st.lower hq
      exact wind_winds (fun i x r w h1 h2 h3 => hp.read (Or.inl rfl) h1 h2 h3 (Or.inr (Or.inl rfl))) z a e)
    (fun _ _ _ z a e => by
      obtain ⟨q, hq, e⟩ := withOpt_get e
      obtain ⟨p, hp⟩ := windCoord_winds st.upper hq
      exact wind_winds (fun i x r w h1 h2 h3 => hp.read (Or.inr rfl) h1 h2 h3 (Or.inr (Or.inl rfl))) z a e) z3 a3 st.wind
  obtain ⟨a5, _⟩ := pair_from (Q := AllWinds (Wind1 ps (-9999)) (-9999))
    (fun _ _ _ z a e => by obtain ⟨p, hp, e⟩ := withPart_get e; exact wind_winds (pressureWinds_of (name := "MXWA") (by decide) hp) z a e)
    (fun _ _ _ z a e => by obtain ⟨p, hp, e⟩ := withPart_get e; exact wind_winds (pressureWinds_of (name := "MXWC") (by decide) hp) z a e) z4 a4 st.maxW
  have v := (logpHeight_miss st.logp).1
  have a6 : AllWinds (Wind1 ps (-9999)) (-9999) s6 := Wind1.others a5 (by rw [v]) (by rw [v]) (by rw [v])
  have hr := st.rest
  unfold mergeRest at hr
  obtain ⟨x, hx, hr⟩ := run_inv hr
  obtain ⟨y, hy, hr⟩ := run_inv hr
  obtain ⟨p0, _, hr⟩ := run_inv hr
  obtain ⟨a7, k, hk⟩ : AllWinds (Wind1 ps (-9999)) (-9999) x.1 ∧ Same x.1 := by
    split at hx
    · obtain ⟨q, hq, hx⟩ := run_inv hx
      obtain rfl := Except.ok.inj hx
      exact ⟨mergeZ_winds st.lower st.upper z6 rows a6 hq, mergeZ_same z6 hq⟩
    · obtain rfl := Except.ok.inj hx
      exact ⟨a6, z6⟩
  obtain ⟨g1, e1, e2, _⟩ := C50_kept c (-9999) x.1 y k hk hy
  have a8 : ∀ j, WindFrom c (-9999) ps y j := by
    intro j e
    rcases C50_winds c (-9999) x.1 y k hk hy j with ⟨f1, f2⟩ | f
    · rw [f1, f2] at e ⊢
      rw [e1]
      rcases a7 j e with a | a
      · exact Or.inl a
      · exact Or.inr (Or.inl a)
    · exact Or.inr (Or.inr f)
  split at hr
  · obtain ⟨p, hp, hr⟩ := run_inv hr
    exact below_windFrom (get_part hp) ⟨k, g1⟩ a8 hr j
  · obtain rfl := Except.ok.inj hr
    exact a8 j

end

/-! ## A case -/

/-- The levels of `fromSample`: winds of mandatory levels, one interpolated for the significant temperature, one by height, one of the tropopause. -/
example : ∃ s, mergeSounding ⟨fun x => x - 1, fun x => x + 1⟩ (-9999) 5 fromSample = .ok (some s) ∧ s.drct.length = 6 ∧ s.drct[3]? = some 190 ∧
    s.sped[5]? = some 40 ∧ ∀ j, WindFrom ⟨fun x => x - 1, fun x => x + 1⟩ (-9999) fromSample s j := by
  have h : (mergeSounding ⟨fun x => x - 1, fun x => x + 1⟩ (-9999) 5 fromSample).toOption.bind (fun o => o.map fun s => (s.drct.length, s.drct[3]?, s.sped[5]?)) =
      some (6, some 190, some 40) := by decide +kernel
  generalize e : mergeSounding ⟨fun x => x - 1, fun x => x + 1⟩ (-9999) 5 fromSample = r at h
  match r, h with
  | .ok (some s), h =>
    have h := Option.some.inj h
    refine ⟨s, rfl, congrArg Prod.fst h, congrArg (fun x => x.2.1) h, congrArg (fun x => x.2.2) h, fun j => C118_winds_from_report _ 5 _ s ?_ ?_ e j⟩
    · intro p hp
      obtain rfl := Option.some.inj hp
      unfold SixNames; decide
    · intro p hp
      cases hp
  | .ok none, h => cases h
  | .error _, h => cases h

end Gempak
