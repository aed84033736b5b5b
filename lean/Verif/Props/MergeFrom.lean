import Verif.Proof.MergeFrom
import Mathlib.Tactic.NormNum

/-!
# C108: no level of a merged sounding is invented
-/

namespace Gempak

open Spec

set_option linter.unusedSectionVars false

section
variable {α : Type} [Field α] [LinearOrder α] {m : α} {ps : SndParts α}

/-! ## Winds on heights -/

/-- A level while winds on heights are merged. -/
structure Row2 (ps : SndParts α) (m p z t d : α) : Prop where
  miss : p = m → t = m ∧ d = m ∧ (z = m ∨ WindHeight ps z)
  pres : p ≠ m → PressureIn ps p
  temp : t ≠ m → ReadBy NearP ps "TEMP" p t
  dwpt : d ≠ m → ReadBy NearP ps "DWPT" p d

/-- A level of the result before gaps are filled. -/
structure Row3 (ps : SndParts α) (m p z t d : α) : Prop where
  pres : p ≠ m → PressureIn ps p ∨ WindHeight ps z
  temp : t ≠ m → ReadBy NearP ps "TEMP" p t
  dwpt : d ≠ m → ReadBy NearP ps "DWPT" p d

theorem zPlace_rest {a b c : α} {s : Snd α} {v : ZVars α} {r : Snd α × ZVars α × Bool} (h : zPlace m a b c s v = .ok r) :
    r.1.pres = s.pres ∧ r.1.hght = s.hght ∧ r.1.temp = s.temp ∧ r.1.dwpt = s.dwpt := by
  unfold zPlace at h
  split at h
  · obtain rfl := Except.ok.inj h; exact ⟨rfl, rfl, rfl, rfl⟩
  · split at h
    · obtain ⟨_, _, h⟩ := run_inv h
      obtain ⟨_, _, h⟩ := run_inv h
      split at h
      · obtain ⟨_, _, h⟩ := run_inv h
        obtain ⟨_, _, h⟩ := run_inv h
        obtain rfl := Except.ok.inj h; exact ⟨rfl, rfl, rfl, rfl⟩
      · obtain rfl := Except.ok.inj h; exact ⟨rfl, rfl, rfl, rfl⟩
    · split at h
      · obtain ⟨_, _, h⟩ := run_inv h
        obtain rfl := Except.ok.inj h; exact ⟨rfl, rfl, rfl, rfl⟩
      · obtain rfl := Except.ok.inj h; exact ⟨rfl, rfl, rfl, rfl⟩

theorem zStore_from {z b c : α} {s : Snd α} {v : ZVars α} {r : Snd α × ZVars α} (hz : WindHeight ps z) (hsz : Same s)
    (hs : AllRows (Row2 ps m) m s) (h : zStore m z b c s v = .ok r) : AllRows (Row2 ps m) m r.1 := by
  unfold zStore at h
  split at h
  · obtain ⟨_, _, h⟩ := run_inv h
    obtain ⟨_, _, h⟩ := run_inv h
    split at h
    · obtain ⟨_, _, h⟩ := run_inv h
      obtain ⟨_, _, h⟩ := run_inv h
      obtain rfl := Except.ok.inj h; exact hs.winds rfl rfl rfl rfl
    · obtain rfl := Except.ok.inj h; exact hs
  · obtain rfl := Except.ok.inj h
    exact hs.insert hsz _ ⟨fun _ => ⟨rfl, rfl, Or.inr hz⟩, fun e => absurd rfl e, fun e => absurd rfl e, fun e => absurd rfl e⟩

theorem zLoop_from {b d : Option (SndPart α)} (hb : WindPart ps "PPBB" b) (hd : WindPart ps "PPDD" d) {x y N i e : Nat} {above : Bool} {s : Snd α}
    {v : ZVars α} {r : Snd α × ZVars α} (hsz : Same s) (hs : AllRows (Row2 ps m) m s) (h : zLoop m b d x y N above i e s v = .ok r) :
    AllRows (Row2 ps m) m r.1 := by
  induction N generalizing above i e s v with
  | zero => cases h
  | succ N ih =>
    rw [zLoop] at h
    split at h
    · split at h
      · cases h
      · rename_i q hq
        obtain ⟨w, hw, h⟩ := run_inv h
        have hwz := zWind_same hsz hw
        have hws : AllRows (Row2 ps m) m w.1 := by
          unfold zWind at hw
          obtain ⟨z, hz, hw⟩ := run_inv hw
          obtain ⟨_, _, hw⟩ := run_inv hw
          obtain ⟨_, _, hw⟩ := run_inv hw
          obtain ⟨k, hk, hw⟩ := run_inv hw
          obtain ⟨u1, u2, u3, u4⟩ := zPlace_rest hk
          have hk' := hs.winds u1 u2 u3 u4
          obtain ⟨n, hn⟩ := hsz
          have hwh : WindHeight ps z := by
            cases above
            · obtain ⟨p, h1, h2, _⟩ := hb q hq
              exact ⟨"PPBB", by decide, p, i, h1, h2 i z hz⟩
            · obtain ⟨p, h1, h2, _⟩ := hd q hq
              exact ⟨"PPDD", by decide, p, i, h1, h2 i z hz⟩
          split at hw
          · exact zStore_from hwh ⟨n, zPlace_same hn hk⟩ hk' hw
          · obtain rfl := Except.ok.inj hw; exact hk'
        split at h
        · exact ih hwz hws h
        · exact ih hwz hws h
    · obtain rfl := Except.ok.inj h; exact hs

theorem mergeZ_from {c : Calc α} {b d : Option (SndPart α)} (hb : WindPart ps "PPBB" b) (hd : WindPart ps "PPDD" d) {x y : Nat} {s : Snd α}
    {r : Snd α × Nat} (hsz : Same s) (hs : AllRows (Row1 NearP ps m) m s) (h : mergeZ c m b d x y s = .ok r) : AllRows (Row3 ps m) m r.1 := by
  unfold mergeZ at h
  obtain ⟨i, _, h⟩ := run_inv h
  obtain ⟨v, _, h⟩ := run_inv h
  obtain ⟨q, hq, h⟩ := run_inv h
  obtain ⟨s', hp, h⟩ := run_inv h
  obtain rfl := Except.ok.inj h
  have hs2 : AllRows (Row2 ps m) m s := fun j =>
    ⟨fun e => ⟨((hs j).miss e).2.1, ((hs j).miss e).2.2, Or.inl ((hs j).miss e).1⟩, (hs j).pres, (hs j).temp, (hs j).dwpt⟩
  obtain ⟨hq1, n, hn⟩ : AllRows (Row2 ps m) m q.1 ∧ Same q.1 := by
    split at hq
    · exact ⟨zLoop_from hb hd hsz hs2 hq, zLoop_same hsz hq⟩
    · exact ⟨zLoop_from hb hd hsz hs2 hq, zLoop_same hsz hq⟩
  obtain ⟨P', e, _, h1, _, h3⟩ := C49_filled c m q.1 n hn.pres hn.hght
  rw [e] at hp
  obtain rfl := Except.ok.inj hp
  intro j
  show Row3 ps m (P'.getD j m) (q.1.hght.getD j m) (q.1.temp.getD j m) (q.1.dwpt.getD j m)
  have hj := hq1 j
  by_cases hm : q.1.pres.getD j m = m
  · obtain ⟨t, d, z⟩ := hj.miss hm
    refine ⟨fun e => ?_, fun e => absurd t e, fun e => absurd d e⟩
    rcases z with z | z
    · exact absurd (h3 j hm (Or.inl z)) e
    · exact Or.inr z
  · rw [h1 j hm]
    exact ⟨fun e => Or.inl (hj.pres e), hj.temp, hj.dwpt⟩

/-! ## Gaps -/

theorem filled_level [FloorRing α] (r : Recipe) (s : Snd α) (x : α) (n i k j : Nat) (hs : s.Size n) (hi : i < n) (hj : j ≠ i) :
    SameLevel m s (filled r s m x i k) j := by
  cases r
  · exact ⟨rfl, rfl, set_same hs.temp hi hj, set_same hs.dwpt hi hj, rfl, rfl⟩
  · exact ⟨rfl, rfl, rfl, rfl, set_same hs.drct hi hj, set_same hs.sped hi hj⟩
  · exact ⟨rfl, rfl, rfl, set_same hs.dwpt hi hj, rfl, rfl⟩

theorem interpParam_between [FloorRing α] {x a b : α} {k : String} (hk : k ≠ "DRCT") (h : interpParam x m k a b ≠ m) :
    a ≠ m ∧ b ≠ m ∧ interpParam x m k a b = a + (b - a) * x := by
  unfold interpParam at h ⊢
  split at h
  · exact absurd rfl h
  · rename_i hc
    rw [if_neg hc, if_neg hk]
    exact ⟨fun e => hc (Or.inl e.symm), fun e => hc (Or.inr e.symm), rfl⟩

theorem between_or {a b v : α} (h : strictlyBetween a b v) : (a < v ∧ v < b) ∨ (b < v ∧ v < a) := by
  rcases h with ⟨_, h1, h2⟩ | ⟨_, h1, h2⟩
  · exact Or.inl ⟨h1, h2⟩
  · exact Or.inr ⟨h1, h2⟩

theorem missingLoop_line [FloorRing α] {c : Calc α} {r : Recipe} {n N i ia : Nat} {s s' : Snd α} (hs : s.Size n) (hi0 : i ≠ 0) (hi : i + N + 1 ≤ n)
    (hia : AboveInv r s m n i ia) (h : missingLoop c r m n N i ia s = .ok s') :
    (∀ k, k < i → SameLevel m s s' k) ∧
      (∀ j, s'.temp.getD j m ≠ m → s'.temp.getD j m = s.temp.getD j m ∨ OnLine c m s'.pres s'.temp j) ∧
      ∀ j, s'.dwpt.getD j m ≠ m → s'.dwpt.getD j m = s.dwpt.getD j m ∨ OnLine c m s'.pres s'.dwpt j := by
  induction N generalizing i ia s with
  | zero =>
    obtain rfl := Except.ok.inj h
    exact ⟨fun k _ => SameLevel.refl m s k, fun _ _ => Or.inl rfl, fun _ _ => Or.inl rfl⟩
  | succ N ih =>
    rw [missingLoop, idx_ok (by rw [column_length hs]; omega) m, ok_bind] at h
    split at h
    · rename_i hv
      rcases levelAbove_spec hs (by omega) hia with ⟨b, e, h1, h2, h3, h4⟩ | ⟨e, h1⟩
      · rw [e, ok_bind] at h
        dsimp only at h
        rcases crossTest_spec r s n i b hs (by omega) h2 with e | ⟨_, e⟩
        · have hf := fillMissing_eq c r s m n i b hs (by omega) h2 (by omega)
          rw [e, ok_bind, hf] at h
          split at h
          · rename_i hc
            rw [if_pos hc] at hf
            have kl := fillMissing_keeps hs hi0 (by omega) hv hf
            generalize hx : c.log (s.pres.getD i m / s.pres.getD (i - 1) m) / c.log (s.pres.getD b m / s.pres.getD (i - 1) m) = x at h hf kl
            generalize hs1 : filled r s m x i b = s1 at h hf kl
            have hsame : ∀ j, j ≠ i → SameLevel m s s1 j := fun j hj => hs1 ▸ filled_level r s x n i b j hs (by omega) hj
            rw [ok_bind, if_pos rfl] at h
            have hb1 : (r.column s1).getD b m ≠ m := by rw [(hsame b (by omega)).column r]; exact h3
            have ia' : AboveInv r s1 m n (i + 1) b :=
              ⟨h2, fun hlt => ⟨hb1, fun j h5 h6 => by rw [(hsame j (by omega)).column r]; exact h4 j (by omega) h6⟩⟩
            have kl' := missingLoop_keeps kl.size (by omega) (by omega) h
            obtain ⟨g1, g2, g3⟩ := ih kl.size (by omega) (by omega) ia' h
            have sb : SameLevel m s s' b := (hsame b (by omega)).trans (kl'.same b (Or.inr (Or.inr hb1)))
            have sa : SameLevel m s s' (i - 1) := (hsame (i - 1) (by omega)).trans (g1 (i - 1) (by omega))
            have si := g1 i (by omega)
            have pi : s'.pres.getD i m = s.pres.getD i m := by rw [kl'.others.1, kl.others.1]
            have line : ∀ (C C' : List α) (k : String), k ≠ "DRCT" → C'.getD (i - 1) m = C.getD (i - 1) m → C'.getD b m = C.getD b m →
                C'.getD i m = interpParam x m k (C.getD (i - 1) m) (C.getD b m) → C'.getD i m ≠ m → OnLine c m s'.pres C' i := by
              intro C C' k hk ea eb ei hne
              rw [ei] at hne
              obtain ⟨w1, w2, w3⟩ := interpParam_between hk hne
              refine ⟨i - 1, b, by omega, h1, ?_, by rw [ea]; exact w1, by rw [eb]; exact w2, ?_⟩
              · rw [sa.1, sb.1, pi]; exact between_or hc.1
              · rw [ei, w3, ea, eb, sa.1, sb.1, pi, hx]
            refine ⟨fun k hk => (hsame k (by omega)).trans (g1 k (by omega)), fun j hj => ?_, fun j hj => ?_⟩
            · by_cases hji : j = i
              · subst hji
                cases r with
                | temp =>
                  right
                  refine line s.temp s'.temp "TEMP" (by decide) sa.2.2.1 sb.2.2.1 ?_ hj
                  rw [si.2.2.1, ← hs1]
                  exact (getD_set _ _ _ _ _ (by rw [hs.temp]; omega)).trans (if_pos rfl)
                | drct => left; rw [si.2.2.1, ← hs1]; rfl
                | dwpt => left; rw [si.2.2.1, ← hs1]; rfl
              · rcases g2 j hj with e | e
                · left; rw [e, (hsame j hji).2.2.1]
                · exact Or.inr e
            · by_cases hji : j = i
              · subst hji
                cases r with
                | temp =>
                  right
                  refine line s.dwpt s'.dwpt "DWPT" (by decide) sa.2.2.2.1 sb.2.2.2.1 ?_ hj
                  rw [si.2.2.2.1, ← hs1]
                  exact (getD_set _ _ _ _ _ (by rw [hs.dwpt]; omega)).trans (if_pos rfl)
                | drct => left; rw [si.2.2.2.1, ← hs1]; rfl
                | dwpt =>
                  right
                  refine line s.dwpt s'.dwpt "DWPT" (by decide) sa.2.2.2.1 sb.2.2.2.1 ?_ hj
                  rw [si.2.2.2.1, ← hs1]
                  exact (getD_set _ _ _ _ _ (by rw [hs.dwpt]; omega)).trans (if_pos rfl)
              · rcases g3 j hj with e | e
                · left; rw [e, (hsame j hji).2.2.2.1]
                · exact Or.inr e
          · cases h
        · rw [e, ok_bind, show fillMissing c r s m i 0 = .ok s from rfl, ok_bind, if_pos rfl] at h
          obtain ⟨g1, g2, g3⟩ := ih hs (by omega) (by omega) (AboveInv.of_zero (by omega)) h
          exact ⟨fun k hk => g1 k (by omega), g2, g3⟩
      · rw [e, ok_bind] at h
        dsimp only at h
        have : crossTest r s i 0 = .ok 0 := by rcases crossTest_spec r s n i 0 hs (by omega) (by omega) with h | ⟨_, h⟩ <;> exact h
        rw [this, ok_bind, show fillMissing c r s m i 0 = .ok s from rfl, ok_bind] at h
        obtain rfl := Except.ok.inj h
        exact ⟨fun k _ => SameLevel.refl m s k, fun _ _ => Or.inl rfl, fun _ _ => Or.inl rfl⟩
    · obtain ⟨g1, g2, g3⟩ := ih hs (by omega) (by omega)
        ⟨hia.1, fun h => ⟨(hia.2 (by omega)).1, fun j h1 h2 => (hia.2 (by omega)).2 j (by omega) h2⟩⟩ h
      exact ⟨fun k hk => g1 k (by omega), g2, g3⟩

/-- C50: a temperature or dew point that was not there lies on the line between those of two levels around it. -/
theorem C50_lines [FloorRing α] (c : Calc α) (m : α) (s s' : Snd α) (n : Nat) (hs : s.Size n) (h : interpMissingData c m s = .ok s') :
    (∀ j, s'.temp.getD j m ≠ m → s'.temp.getD j m = s.temp.getD j m ∨ OnLine c m s'.pres s'.temp j) ∧
      ∀ j, s'.dwpt.getD j m ≠ m → s'.dwpt.getD j m = s.dwpt.getD j m ∨ OnLine c m s'.pres s'.dwpt j := by
  unfold interpMissingData at h
  dsimp only at h
  by_cases hn : n < 2
  · rw [hs.pres, show n - 2 = 0 by omega] at h
    have : s' = s := (Except.ok.inj h).symm
    subst this
    exact ⟨fun _ _ => Or.inl rfl, fun _ _ => Or.inl rfl⟩
  · rw [hs.pres] at h
    obtain ⟨s1, h1, h⟩ := run_inv h
    obtain ⟨s2, h2, h3⟩ := run_inv h
    have k1 := missingLoop_keeps hs (by omega) (by omega) h1
    have k2 := missingLoop_keeps k1.size (by omega) (by omega) h2
    have k3 := missingLoop_keeps k2.size (by omega) (by omega) h3
    obtain ⟨_, t1, d1⟩ := missingLoop_line hs (by omega) (by omega) (AboveInv.of_zero (by omega)) h1
    obtain ⟨_, _, d3⟩ := missingLoop_line k2.size (by omega) (by omega) (AboveInv.of_zero (by omega)) h3
    obtain ⟨p2, _, e2, f2⟩ := k2.others
    obtain ⟨p3, _, e3, _, _⟩ := k3.others
    refine ⟨fun j hj => ?_, fun j hj => ?_⟩
    · rw [e3, e2] at hj ⊢
      rw [p3, p2]
      exact t1 j hj
    · rcases d3 j hj with e | e
      · rw [e, f2] at hj
        rcases d1 j hj with e' | ⟨a, b, ha, hb, hp, ca, cb, cj⟩
        · left; rw [e, f2, e']
        · have keep : ∀ k, s1.dwpt.getD k m ≠ m → s'.dwpt.getD k m = s1.dwpt.getD k m := by
            intro k hk
            rw [← f2] at hk ⊢
            exact (k3.same k (Or.inr (Or.inr hk))).2.2.2.1
          right
          refine ⟨a, b, ha, hb, ?_, ?_, ?_, ?_⟩
          · rw [p3, p2]; exact hp
          · rw [keep a ca]; exact ca
          · rw [keep b cb]; exact cb
          · rw [keep a ca, keep b cb, keep j hj, p3, p2]; exact cj
      · exact Or.inr e

/-! ## The result -/

/-- Every level and value of a sounding comes from the report. -/
structure Spec.FromReport (c : Calc α) (m : α) (ps : SndParts α) (s : Snd α) (j : Nat) : Prop where
  pres : s.pres.getD j m ≠ m → PressureIn ps (s.pres.getD j m) ∨ WindHeight ps (s.hght.getD j m)
  temp : s.temp.getD j m ≠ m → ReadBy NearP ps "TEMP" (s.pres.getD j m) (s.temp.getD j m) ∨ OnLine c m s.pres s.temp j
  dwpt : s.dwpt.getD j m ≠ m → ReadBy NearP ps "DWPT" (s.pres.getD j m) (s.dwpt.getD j m) ∨ OnLine c m s.pres s.dwpt j

theorem insert_from {c : Calc α} {p : SndPart α} (hpp : ps.part "TTAA" = some p) {i n : Nat} {s : Snd α} (hn : s.Size n)
    (hs : ∀ j, FromReport c m ps s j) (loc : Int) {pr z t d r v : α} (hpr : p.at "PRES" i = .ok pr) (ht : p.at "TEMP" i = .ok t)
    (hd : p.at "DWPT" i = .ok d) : ∀ j, FromReport c m ps (s.insert loc pr z t d r v) j := by
  obtain ⟨w, _, g⟩ := insert_getD (m := m) n loc
  have gm : ∀ (l : List α) (v : α), l.length = n → ∀ i, (pyInsert l loc v).getD (if i < w then i else i + 1) m = l.getD i m := by
    intro l v hl i
    rw [g l v hl]
    by_cases hi : i < w
    · rw [if_pos hi, if_pos hi]
    · rw [if_neg hi, if_neg (by omega), if_neg (by omega), Nat.add_sub_cancel]
  have line : ∀ (C : List α) (v : α) (j : Nat), C.length = n → OnLine c m s.pres C j →
      OnLine c m (pyInsert s.pres loc pr) (pyInsert C loc v) (if j < w then j else j + 1) := by
    rintro C v j hC ⟨a, b, ha, hb, h1, h2, h3, h4⟩
    refine ⟨if a < w then a else a + 1, if b < w then b else b + 1, by split <;> split <;> omega, by split <;> split <;> omega, ?_, ?_, ?_, ?_⟩
    · rw [gm _ _ hn.pres, gm _ _ hn.pres, gm _ _ hn.pres]; exact h1
    · rw [gm _ _ hC]; exact h2
    · rw [gm _ _ hC]; exact h3
    · rw [gm _ _ hC, gm _ _ hC, gm _ _ hC, gm _ _ hn.pres, gm _ _ hn.pres, gm _ _ hn.pres]; exact h4
  intro j
  by_cases hj : j = w
  · subst hj
    have at_w : ∀ (l : List α) (v : α), l.length = n → (pyInsert l loc v).getD j m = v := by
      intro l v hl
      rw [g l v hl, if_neg (by omega), if_pos rfl]
    refine ⟨fun _ => Or.inl ?_, fun _ => Or.inl ?_, fun _ => Or.inl ?_⟩
    · show PressureIn ps ((pyInsert s.pres loc pr).getD j m)
      rw [at_w _ _ hn.pres]
      exact Or.inl ⟨"TTAA", by decide, p, i, pr, hpp, hpr, Or.inl rfl⟩
    · show ReadBy NearP ps "TEMP" ((pyInsert s.pres loc pr).getD j m) ((pyInsert s.temp loc t).getD j m)
      rw [at_w _ _ hn.pres, at_w _ _ hn.temp]
      exact ⟨"TTAA", by decide, p, i, pr, hpp, hpr, ht, Or.inl rfl⟩
    · show ReadBy NearP ps "DWPT" ((pyInsert s.pres loc pr).getD j m) ((pyInsert s.dwpt loc d).getD j m)
      rw [at_w _ _ hn.pres, at_w _ _ hn.dwpt]
      exact ⟨"TTAA", by decide, p, i, pr, hpp, hpr, hd, Or.inl rfl⟩
  · obtain ⟨j0, rfl⟩ : ∃ j0, j = if j0 < w then j0 else j0 + 1 := by
      by_cases hlt : j < w
      · exact ⟨j, by rw [if_pos hlt]⟩
      · exact ⟨j - 1, by rw [if_neg (by omega)]; omega⟩
    have h0 := hs j0
    refine ⟨fun e => ?_, fun e => ?_, fun e => ?_⟩
    · change (pyInsert s.pres loc pr).getD _ m ≠ m at e
      show PressureIn ps ((pyInsert s.pres loc pr).getD _ m) ∨ WindHeight ps ((pyInsert s.hght loc z).getD _ m)
      rw [gm _ _ hn.pres] at e ⊢
      rw [gm _ _ hn.hght]
      exact h0.pres e
    · change (pyInsert s.temp loc t).getD _ m ≠ m at e
      show ReadBy NearP ps "TEMP" ((pyInsert s.pres loc pr).getD _ m) ((pyInsert s.temp loc t).getD _ m) ∨
        OnLine c m (pyInsert s.pres loc pr) (pyInsert s.temp loc t) _
      rw [gm _ _ hn.temp] at e
      rcases h0.temp e with e' | e'
      · left; rw [gm _ _ hn.temp, gm _ _ hn.pres]; exact e'
      · exact Or.inr (line _ _ _ hn.temp e')
    · change (pyInsert s.dwpt loc d).getD _ m ≠ m at e
      show ReadBy NearP ps "DWPT" ((pyInsert s.pres loc pr).getD _ m) ((pyInsert s.dwpt loc d).getD _ m) ∨
        OnLine c m (pyInsert s.pres loc pr) (pyInsert s.dwpt loc d) _
      rw [gm _ _ hn.dwpt] at e
      rcases h0.dwpt e with e' | e'
      · left; rw [gm _ _ hn.dwpt, gm _ _ hn.pres]; exact e'
      · exact Or.inr (line _ _ _ hn.dwpt e')

theorem below_from {c : Calc α} {p : SndPart α} (hpp : ps.part "TTAA" = some p) {N i : Nat} {s s' : Snd α} {k : Option Nat} (hsz : Same s)
    (hs : ∀ j, FromReport c m ps s j) (h : mergeBelow p N i s k = .ok s') : ∀ j, FromReport c m ps s' j := by
  induction N generalizing i s k with
  | zero => obtain rfl := Except.ok.inj h; exact hs
  | succ N ih =>
    rw [mergeBelow] at h
    obtain ⟨pr, hpr, h⟩ := run_inv h
    obtain ⟨p0, _, h⟩ := run_inv h
    split at h
    · split at h
      · cases h
      · dsimp only at h
        obtain ⟨z, _, h⟩ := run_inv h
        obtain ⟨t, ht, h⟩ := run_inv h
        obtain ⟨d, hd, h⟩ := run_inv h
        obtain ⟨_, _, h⟩ := run_inv h
        obtain ⟨_, _, h⟩ := run_inv h
        obtain ⟨n, hn⟩ := hsz
        exact ih ⟨n + 1, insert_size hn _ _ _ _ _ _ _⟩ (insert_from hpp hn hs _ hpr ht hd) h
    · exact ih hsz hs h

theorem abs_given [IsStrictOrderedRing α] (x : α) : |x| ≠ -9999 := fun e => by
  have h1 := abs_nonneg x
  rw [e] at h1
  exact absurd h1 (not_le.2 (neg_neg_of_pos (by norm_num)))

/-- The levels before the winds on heights, and the lengths of all columns on the way. -/
theorem Stages.from [FloorRing α] [IsStrictOrderedRing α] {c : Calc α} {fuel : Nat} {s : Snd α} {n : Counts} {b d : Bool × Option (SndPart α)}
    {r : Snd α × Nat} {s1 s2 s3 s4 s5 s6 : Snd α} (st : Stages c (-9999) fuel ps s n b d r s1 s2 s3 s4 s5 s6)
    (hA : ∀ p, ps.part "TTAA" = some p → SixNames p) (hC : ∀ p, ps.part "TTCC" = some p → SixNames p) :
    AllRows (Row1 NearP ps (-9999)) (-9999) s6 ∧ Same r.1 ∧ Same s1 ∧ Same s2 ∧ Same s3 ∧ Same s4 ∧ Same s5 ∧ Same s6 := by
  have hb := windCoord_from st.lower
  have hd := windCoord_from st.upper
  have z0 := mergeMandatory_same hA hC st.man
  have a0 := mandatory_from abs_given hb hA hC st.man
  have tp : ∀ name p, name ∈ ["TTAA", "TTCC", "TRPA", "TRPC", "TTBB", "TTDD"] → ps.part name = some p → TempPart ps p := fun name p h1 h2 => ⟨name, h1, h2⟩
  obtain ⟨a1, z1⟩ := pair_from (Q := AllRows (Row1 NearP ps (-9999)) (-9999))
    (fun _ _ _ z a e => by obtain ⟨p, hp, e⟩ := withPart_get e; exact trop_from (tp _ p (by decide) hp) z a e)
    (fun _ _ _ z a e => by obtain ⟨p, hp, e⟩ := withPart_get e; exact trop_from (tp _ p (by decide) hp) z a e) z0 a0 st.trop
  obtain ⟨a2, z2⟩ := pair_from (Q := AllRows (Row1 NearP ps (-9999)) (-9999))
    (fun _ _ _ z a e => by obtain ⟨p, hp, e⟩ := withPart_get e; exact sigT_from (tp _ p (by decide) hp) z a e)
    (fun _ _ _ z a e => by obtain ⟨p, hp, e⟩ := withPart_get e; exact sigT_from (tp _ p (by decide) hp) z a e) z1 a1 st.sigT
  obtain ⟨u1, u2⟩ := moist_miss st.moist
  have a3 := a2.heights u1 u2
  have z3 : Same s3 := by
    obtain ⟨k, hk⟩ := z2
    obtain ⟨s', e, g, _⟩ := C51_moist c (-9999) k s2.pres.length s2 hk (by rw [hk.pres])
    rw [st.moist] at e
    obtain rfl := Except.ok.inj e
    exact ⟨k, g⟩
  obtain ⟨a4, z4⟩ := pair_from (Q := AllRows (Row1 NearP ps (-9999)) (-9999))
    (fun _ _ _ z a e => by obtain ⟨p, hp, e⟩ := withOpt_get e; exact wind_from (fun i x hx => hb.pressure (Or.inl rfl) hp hx) z a e)
    (fun _ _ _ z a e => by obtain ⟨p, hp, e⟩ := withOpt_get e; exact wind_from (fun i x hx => hd.pressure (Or.inr rfl) hp hx) z a e) z3 a3 st.wind
  obtain ⟨a5, z5⟩ := pair_from (Q := AllRows (Row1 NearP ps (-9999)) (-9999))
    (fun _ _ _ z a e => by
      obtain ⟨p, hp, e⟩ := withPart_get e
      exact wind_from (fun i x hx => Or.inl ⟨"MXWA", by decide, p, i, x, hp, hx, Or.inr rfl⟩) z a e)
    (fun _ _ _ z a e => by
      obtain ⟨p, hp, e⟩ := withPart_get e
      exact wind_from (fun i x hx => Or.inl ⟨"MXWC", by decide, p, i, x, hp, hx, Or.inr rfl⟩) z a e) z4 a4 st.maxW
  obtain ⟨v1, v2⟩ := logpHeight_miss st.logp
  have a6 := a5.heights v1 v2
  have z6 : Same s6 := by
    obtain ⟨k, hk⟩ := z5
    exact ⟨k, logpHeight_same hk st.logp⟩
  exact ⟨a6, z0, z1, z2, z3, z4, z5, z6⟩

/-- C108: whatever a report holds, every level of the merged sounding is one of the report: its pressure is that of a mandatory, tropopause,
significant or maximum wind level, or its height is one for which the report gives a wind.  Every temperature and dew point is one the report
gives for that pressure, or lies on the line between those of a level before and a level after. -/
theorem C108_from_report [FloorRing α] [IsStrictOrderedRing α] (c : Calc α) (fuel : Nat) (ps : SndParts α) (s : Snd α)
    (hA : ∀ p, ps.part "TTAA" = some p → SixNames p) (hC : ∀ p, ps.part "TTCC" = some p → SixNames p)
    (h : mergeSounding c (-9999) fuel ps = .ok (some s)) (j : Nat) : FromReport c (-9999) ps s j := by
  obtain ⟨n, b, d, r, s1, s2, s3, s4, s5, s6, st⟩ := merge_stages h
  have hb := windCoord_from st.lower
  have hd := windCoord_from st.upper
  obtain ⟨a6, _, _, _, _, _, _, z6⟩ := st.from hA hC
  have hr := st.rest
  unfold mergeRest at hr
  obtain ⟨x, hx, hr⟩ := run_inv hr
  obtain ⟨y, hy, hr⟩ := run_inv hr
  obtain ⟨p0, _, hr⟩ := run_inv hr
  obtain ⟨a7, k, hk⟩ : AllRows (Row3 ps (-9999)) (-9999) x.1 ∧ Same x.1 := by
    split at hx
    · obtain ⟨q, hq, hx⟩ := run_inv hx
      obtain rfl := Except.ok.inj hx
      exact ⟨mergeZ_from hb hd z6 a6 hq, mergeZ_same z6 hq⟩
    · obtain rfl := Except.ok.inj hx
      exact ⟨fun j => ⟨fun e => Or.inl ((a6 j).pres e), (a6 j).temp, (a6 j).dwpt⟩, z6⟩
  obtain ⟨g1, e1, e2, _⟩ := C50_kept c (-9999) x.1 y k hk hy
  obtain ⟨l1, l2⟩ := C50_lines c (-9999) x.1 y k hk hy
  have a8 : ∀ j, FromReport c (-9999) ps y j := by
    intro j
    refine ⟨fun e => ?_, fun e => ?_, fun e => ?_⟩
    · rw [e1] at e ⊢
      rw [e2]
      exact (a7 j).pres e
    · rcases l1 j e with e' | e'
      · left; rw [e', e1]; exact (a7 j).temp (by rw [← e']; exact e)
      · exact Or.inr e'
    · rcases l2 j e with e' | e'
      · left; rw [e', e1]; exact (a7 j).dwpt (by rw [← e']; exact e)
      · exact Or.inr e'
  split at hr
  · obtain ⟨p, hp, hr⟩ := run_inv hr
    exact below_from (get_part hp) ⟨k, g1⟩ a8 hr j
  · obtain rfl := Except.ok.inj hr
    exact a8 j

end

/-! ## A case -/

/-- Mandatory levels, a tropopause, significant temperatures and winds by height. -/
def fromSample : SndParts ℚ :=
  ⟨100, fun x =>
    if x = "TTAA" then some [("PRES", [1000, 850, 500]), ("TEMP", [20, 10, -10]), ("DWPT", [15, 5, -20]), ("DRCT", [90, 180, 200]), ("SPED", [5, 10, 20]),
      ("HGHT", [100, 1500, 5500])]
    else if x = "TTBB" then some [("PRES", [1000, 900]), ("TEMP", [20, 12]), ("DWPT", [15, 6])]
    else if x = "TRPA" then some [("PRES", [300]), ("TEMP", [-50]), ("DWPT", [-60]), ("DRCT", [220]), ("SPED", [40])]
    else if x = "PPBB" then some [("HGHT", [0, 3000]), ("DRCT", [90, 190]), ("SPED", [5, 15])]
    else none⟩

/-- Two levels of mandatory temperatures above the surface, a significant one, the tropopause, and one for the wind at 3000 m, whose pressure
and temperature are interpolated. -/
example : ∃ s, mergeSounding ⟨fun x => x - 1, fun x => x + 1⟩ (-9999) 5 fromSample = .ok (some s) ∧ s.pres.length = 6 ∧ s.hght[3]? = some 3000 ∧
    ∀ j, FromReport ⟨fun x => x - 1, fun x => x + 1⟩ (-9999) fromSample s j := by
  have h : (mergeSounding ⟨fun x => x - 1, fun x => x + 1⟩ (-9999) 5 fromSample).toOption.bind (fun o => o.map fun s => (s.pres.length, s.hght[3]?)) =
      some (6, some 3000) := by decide +kernel
  generalize e : mergeSounding ⟨fun x => x - 1, fun x => x + 1⟩ (-9999) 5 fromSample = r at h
  match r, h with
  | .ok (some s), h =>
    have h := Option.some.inj h
    refine ⟨s, rfl, congrArg Prod.fst h, congrArg Prod.snd h, fun j => C108_from_report _ 5 _ s ?_ ?_ e j⟩
    · intro p hp
      obtain rfl := Option.some.inj hp
      unfold SixNames; decide
    · intro p hp
      cases hp
  | .ok none, h => cases h
  | .error _, h => cases h

end Gempak
