import Verif.Props.CalcFill

/-!
# C51: heights from pressures
-/

namespace Gempak

open Spec

section
variable {α : Type} [Field α] [LinearOrder α]

theorem findTop_stop (s : Snd α) (m pres : α) (fuel l : Nat) (ptop : α) (ztop : Option α) (h : ¬ pres ≤ ptop) :
    findTop s m pres fuel l ptop ztop = .ok (ptop, ztop) := by
  rw [findTop.eq_def]
  dsimp only
  rw [if_neg h]

/-- The top search ends at the next level with a height, when that level has less pressure. -/
theorem findTop_spec (s : Snd α) (m pres : α) (n b : Nat) (hsz : s.hght.length = n) (hsp : s.pres.length = n) (hb : b < n) (hz : s.hght.getD b m ≠ m) (hp : s.pres.getD b m < pres)
    (fuel l : Nat) (ptop : α) (ztop : Option α) (hlb : l ≤ b) (hf : b < l + fuel) (hm : ∀ k, l ≤ k → k < b → s.hght.getD k m = m)
    (ht : pres ≤ ptop) : findTop s m pres fuel l ptop ztop = .ok (s.pres.getD b m, some (s.hght.getD b m)) := by
  induction fuel generalizing l with
  | zero => omega
  | succ fuel ih =>
    rw [findTop, if_pos ht]
    rw [idx_ok (by rw [hsz]; omega) m, ok_bind]
    by_cases e : l = b
    · subst e
      rw [if_pos hz, idx_ok (by rw [hsp]; omega) m, ok_bind, findTop_stop _ _ _ _ _ _ _ (not_le.mpr hp)]
    · rw [if_neg (fun h => h (hm l (le_refl _) (by omega)))]
      exact ih (l + 1) (by omega) (by omega) (fun k h1 h2 => hm k (by omega) h2)

/-- Height at pressure `p` on the line over log pressure through two levels. -/
def logLine (c : Calc α) (pa ta pb tb p : α) : α := ta + (tb - ta) * (c.log (p / pa) / c.log (pb / pa))

/-- What the loop leaves at level `j` below the uppermost height. -/
structure LineFilled (c : Calc α) (P T : List α) (m : α) (j : Nat) (v : α) : Prop where
  kept : T.getD j m ≠ m → v = T.getD j m
  line : ∀ a b, Around T m a j b → v = logLine c (P.getD a m) (T.getD a m) (P.getD b m) (T.getD b m) (P.getD j m)
  none : T.getD j m = m → (∀ k, k < j → T.getD k m = m) → v = m

/-- Invariant of the first loop. -/
structure HInv (c : Calc α) (s0 s : Snd α) (v : BotTop α) (m : α) (n i : Nat) : Prop where
  size : s.Size n
  others : s = { s0 with hght := s.hght }
  done : ∀ j, j < i → LineFilled c s0.pres s0.hght m j (s.hght.getD j m)
  rest : ∀ j, i ≤ j → s.hght.getD j m = s0.hght.getD j m
  bot : (v.bot = none ∧ ∀ k, k < i → s0.hght.getD k m = m) ∨
    ∃ a, a < i ∧ s0.hght.getD a m ≠ m ∧ (∀ k, a < k → k < i → s0.hght.getD k m = m) ∧
      ∃ ptop, v.bot = some (s0.pres.getD a m, s0.hght.getD a m, ptop) ∧
        (ptop = 2000 ∨ ∃ b, i ≤ b ∧ b < n ∧ s0.hght.getD b m ≠ m ∧ (∀ k, a < k → k < b → s0.hght.getD k m = m) ∧
          ptop = s0.pres.getD b m ∧ v.ztop = some (s0.hght.getD b m))

omit [Field α] in
theorem nearest_above (T : List α) (m : α) (i t : Nat) (h1 : i < t) (h : T.getD t m ≠ m) :
    ∃ b, i < b ∧ b ≤ t ∧ T.getD b m ≠ m ∧ ∀ k, i < k → k < b → T.getD k m = m := by
  obtain ⟨d, rfl⟩ : ∃ d, t = i + 1 + d := ⟨t - (i + 1), by omega⟩
  clear h1
  induction d using Nat.strong_induction_on with
  | _ d ih =>
    by_cases hc : ∃ e, e < d ∧ T.getD (i + 1 + e) m ≠ m
    · obtain ⟨e, h1, h2⟩ := hc
      obtain ⟨b, b1, b2, b3, b4⟩ := ih e h1 h2
      exact ⟨b, b1, by omega, b3, b4⟩
    · push Not at hc
      refine ⟨i + 1 + d, by omega, le_refl _, h, fun k k1 k2 => ?_⟩
      have := hc (k - (i + 1)) (by omega)
      rwa [show i + 1 + (k - (i + 1)) = k by omega] at this

omit [Field α] [LinearOrder α] in
theorem around_unique {T : List α} {m : α} {a b a' b' j : Nat} (h : Around T m a j b) (h' : Around T m a' j b') : a' = a ∧ b' = b := by
  have := h.below; have := h.above; have := h'.below; have := h'.above
  constructor
  · rcases Nat.lt_trichotomy a' a with e | e | e
    · exact absurd (h'.next a e (by omega)) h.low
    · exact e
    · exact absurd (h.next a' e (by omega)) h'.low
  · rcases Nat.lt_trichotomy b' b with e | e | e
    · exact absurd (h.next b' (by omega) e) h'.high
    · exact e
    · exact absurd (h'.next b (by omega) e) h.high

theorem heightStep_inv (c : Calc α) (s0 : Snd α) (m : α) (n fuel i t : Nat) (hp : Falling s0.pres m n) (hp2 : ∀ k, s0.pres.getD k m ≤ 2000)
    (hm : ∀ k, k < n → s0.pres.getD k m ≠ m) (hf : n ≤ fuel) (s : Snd α) (v : BotTop α) (hit : i < t) (htn : t < n)
    (ht : s0.hght.getD t m ≠ m) (inv : HInv c s0 s v m n i) :
    ∃ s' v', heightStep c m fuel i s v = .ok (s', v') ∧ HInv c s0 s' v' m n (i + 1) := by
  have hsp : s.pres = s0.pres := by rw [inv.others]
  unfold heightStep
  rw [idx_ok (by rw [inv.size.pres]; omega) m, ok_bind, idx_ok (by rw [inv.size.hght]; omega) m, ok_bind, hsp, if_neg (hm i (by omega)),
    inv.rest i (le_refl _)]
  have nofill : ∀ w, (∀ j, j < i → LineFilled c s0.pres s0.hght m j (s.hght.getD j m)) →
      LineFilled c s0.pres s0.hght m i w → s.hght.getD i m = w → ∀ j, j < i + 1 → LineFilled c s0.pres s0.hght m j (s.hght.getD j m) := by
    intro w h1 h2 h3 j hj
    by_cases e : j = i
    · rw [e, h3]; exact h2
    · exact h1 j (by omega)
  by_cases hz : s0.hght.getD i m ≠ m
  · rw [if_pos hz]
    refine ⟨s, _, rfl, inv.size, inv.others, nofill _ inv.done ⟨fun _ => rfl, fun a b h => absurd (h.next i h.below h.above) hz, fun h => absurd h hz⟩
      (inv.rest i (le_refl _)), fun j hj => inv.rest j (by omega), Or.inr ⟨i, by omega, hz, fun k h1 h2 => by omega, 2000, rfl, Or.inl rfl⟩⟩
  · rw [if_neg hz]
    push Not at hz
    rcases inv.bot with ⟨hb, hnone⟩ | ⟨a, a1, a2, a3, ptop, hb, hpt⟩
    · rw [hb]
      dsimp only
      refine ⟨s, v, rfl, inv.size, inv.others, nofill _ inv.done ⟨fun _ => rfl, fun a b h => absurd (hnone a h.below) h.low, fun h _ => h⟩
        (inv.rest i (le_refl _)), fun j hj => inv.rest j (by omega), Or.inl ⟨hb, fun k hk => ?_⟩⟩
      by_cases e : k = i
      · rw [e]; exact hz
      · exact hnone k (by omega)
    · rw [hb]
      dsimp only
      obtain ⟨b, b1, b2, b3, b4⟩ := nearest_above s0.hght m i t hit ht
      have bgap : ∀ k, a < k → k < b → s0.hght.getD k m = m := by
        intro k k1 k2
        rcases Nat.lt_trichotomy k i with e | e | e
        · exact a3 k k1 e
        · rw [e]; exact hz
        · exact b4 k e k2
      have har : Around s0.hght m a i b := ⟨a1, b1, a2, b3, bgap⟩
      have htop : findTop s m (s0.pres.getD i m) fuel (i + 1) ptop v.ztop = .ok (s0.pres.getD b m, some (s0.hght.getD b m)) := by
        have hlt := (hp i b b1 (by omega)).2.2
        rcases hpt with e | ⟨b', c1, c2, c3, c4, c5, c6⟩
        · rw [findTop_spec s m (s0.pres.getD i m) n b inv.size.hght inv.size.pres (by omega) (by rw [inv.rest b (by omega)]; exact b3) (by rw [hsp]; exact hlt) fuel
            (i + 1) ptop v.ztop (by omega) (by omega) (fun k k1 k2 => by rw [inv.rest k (by omega)]; exact b4 k (by omega) k2)
            (by rw [e]; exact hp2 i), hsp, inv.rest b (by omega)]
        · have eb : b' = b := by
            have hbi : i < b' := by
              rcases Nat.lt_or_ge i b' with e | e
              · exact e
              · exact absurd (by rw [show b' = i by omega]; exact hz) c3
            exact (around_unique har ⟨a1, hbi, a2, c3, c4⟩).2
          subst eb
          rw [findTop_stop _ _ _ _ _ _ _ (by rw [c5]; exact not_le.mpr hlt), c5, c6]
      rw [htop, ok_bind]
      dsimp only
      rw [put_ok (by rw [inv.size.hght]; omega), ok_bind]
      refine ⟨_, _, rfl, ⟨?_, ?_, ?_, ?_, ?_⟩⟩
      · exact ⟨by rw [← hsp]; exact inv.size.pres, by simpa using inv.size.hght, inv.size.temp, inv.size.dwpt, inv.size.drct, inv.size.sped⟩
      · rw [inv.others]
      · intro j hj
        dsimp only
        by_cases e : j = i
        · subst e
          rw [getD_set _ _ _ _ _ (by rw [inv.size.hght]; omega), if_pos rfl]
          refine ⟨fun h => absurd hz h, fun a' b' h => ?_, fun _ h => absurd (h a a1) a2⟩
          obtain ⟨rfl, rfl⟩ := around_unique har h
          rfl
        · rw [set_same inv.size.hght (by omega) e]
          exact inv.done j (by omega)
      · intro j hj
        dsimp only
        rw [set_same inv.size.hght (by omega) (by omega)]
        exact inv.rest j (by omega)
      · refine Or.inr ⟨a, by omega, a2, fun k k1 k2 => bgap k k1 (by omega), s0.pres.getD b m, rfl, Or.inr ⟨b, by omega, by omega, b3, bgap, rfl, rfl⟩⟩

theorem heightLoop_inv (c : Calc α) (s0 : Snd α) (m : α) (n fuel t : Nat) (hp : Falling s0.pres m n) (hp2 : ∀ k, s0.pres.getD k m ≤ 2000)
    (hm : ∀ k, k < n → s0.pres.getD k m ≠ m) (hf : n ≤ fuel) (htn : t < n) (ht : s0.hght.getD t m ≠ m) (N i : Nat) (hN : i + N = t)
    (s : Snd α) (v : BotTop α) (inv : HInv c s0 s v m n i) :
    ∃ s' v', heightLoop c m fuel N i s v = .ok s' ∧ HInv c s0 s' v' m n t := by
  induction N generalizing i s v with
  | zero => obtain rfl : i = t := by omega
            exact ⟨s, v, rfl, inv⟩
  | succ N ih =>
    obtain ⟨s1, v1, e1, inv1⟩ := heightStep_inv c s0 m n fuel i t hp hp2 hm hf s v (by omega) htn ht inv
    rw [heightLoop, e1, ok_bind]
    exact ih (i + 1) (by omega) s1 v1 inv1

/-- The second loop ends and keeps present heights. -/
theorem extendLoop_ok (c : Calc α) (m d : α) (n N i : Nat) (s : Snd α) (b : Layer α) (hs : s.Size n) (hi : i + N ≤ n) :
    ∃ s', extendLoop c m d N i s b = .ok s' ∧ s'.Size n ∧ s' = { s with hght := s'.hght } ∧
      (∀ k, k < i ∨ s.hght.getD k m ≠ m → s'.hght.getD k m = s.hght.getD k m) := by
  induction N generalizing i s b with
  | zero => exact ⟨s, rfl, hs, rfl, fun _ _ => rfl⟩
  | succ N ih =>
    rw [extendLoop, idx_ok (by rw [hs.hght]; omega) m, ok_bind]
    have hst : ∃ s1, extendStep c m d i s b (s.hght.getD i m) = .ok s1 ∧ s1.Size n ∧ s1 = { s with hght := s1.hght } ∧
        ∀ k, k < i ∨ s.hght.getD k m ≠ m → s1.hght.getD k m = s.hght.getD k m := by
      unfold extendStep
      by_cases h : s.hght.getD i m = m
      · rw [if_pos h, idx_ok (by rw [hs.temp]; omega) m, ok_bind, idx_ok (by rw [hs.dwpt]; omega) m, ok_bind, idx_ok (by rw [hs.pres]; omega) m,
          ok_bind]
        dsimp only
        rw [put_ok (by rw [hs.hght]; omega), ok_bind]
        refine ⟨_, rfl, ⟨hs.pres, by simpa using hs.hght, hs.temp, hs.dwpt, hs.drct, hs.sped⟩, rfl, fun k hk => ?_⟩
        exact set_same hs.hght (by omega) (by rintro rfl; rcases hk with e | e; omega; exact e h)
      · rw [if_neg h]
        exact ⟨s, rfl, hs, rfl, fun _ _ => rfl⟩
    obtain ⟨s1, e1, h1, h2, h3⟩ := hst
    rw [e1, ok_bind, idx_ok (by rw [h1.temp]; omega) m, ok_bind, idx_ok (by rw [h1.hght]; omega) m, ok_bind]
    have key : ∀ b', ∃ s', extendLoop c m d N (i + 1) s1 b' = .ok s' ∧ s'.Size n ∧ s' = { s with hght := s'.hght } ∧
        (∀ k, k < i ∨ s.hght.getD k m ≠ m → s'.hght.getD k m = s.hght.getD k m) := by
      intro b'
      obtain ⟨s', e, g1, g2, g3⟩ := ih (i + 1) s1 b' h1 (by omega)
      refine ⟨s', e, g1, by rw [g2, h2], fun k hk => ?_⟩
      rw [g3 k (by rcases hk with e | e; exact Or.inl (by omega); exact Or.inr (by rw [h3 k (Or.inr e)]; exact e)), h3 k hk]
    split
    · rw [idx_ok (by rw [h1.pres]; omega) m, ok_bind, idx_ok (by rw [h1.dwpt]; omega) m, ok_bind]
      exact key _
    · exact key _

omit [Field α] in
theorem lastHeight_spec (h : List α) (m : α) (n k : Nat) (hn : h.length = n) (hk : k < n) :
    (∃ t, lastHeight h m k = some t ∧ 0 < t ∧ t ≤ k ∧ h.getD t m ≠ m ∧ ∀ j, t < j → j ≤ k → h.getD j m = m) ∨
      (lastHeight h m k = none ∧ ∀ j, 0 < j → j ≤ k → h.getD j m = m) := by
  induction k with
  | zero => exact Or.inr ⟨rfl, fun j h1 h2 => by omega⟩
  | succ k ih =>
    rw [lastHeight, List.getElem?_eq_getElem (by omega)]
    have e : h.getD (k + 1) m = h[k + 1]'(by omega) := by
      rw [List.getD_eq_getElem?_getD, List.getElem?_eq_getElem (by omega)]; rfl
    by_cases hv : h.getD (k + 1) m = m
    · rw [if_neg (by rw [← e, hv]; simp)]
      rcases ih (by omega) with ⟨t, h1, h2, h3, h4, h5⟩ | ⟨h1, h2⟩
      · refine Or.inl ⟨t, h1, h2, by omega, h4, fun j j1 j2 => ?_⟩
        by_cases ej : j = k + 1
        · rw [ej]; exact hv
        · exact h5 j j1 (by omega)
      · refine Or.inr ⟨h1, fun j j1 j2 => ?_⟩
        by_cases ej : j = k + 1
        · rw [ej]; exact hv
        · exact h2 j j1 (by omega)
    · rw [if_pos (by rw [← e]; simpa using hv)]
      exact Or.inl ⟨k + 1, rfl, by omega, le_refl _, hv, fun j h1 h2 => by omega⟩

/-- C51 with any logarithm: what the run returns on positive falling pressures of at most 2000 hPa. -/
theorem logpHeight_spec (c : Calc α) (m : α) (n : Nat) (s : Snd α) (hs : s.Size n) (hn : 0 < n) (hp : Falling s.pres m n)
    (hp2 : ∀ k, s.pres.getD k m ≤ 2000) (hm : ∀ k, k < n → s.pres.getD k m ≠ m) (fuel : Nat) (hf : n ≤ fuel) :
    ∃ s', interpLogpHeight c m fuel s = .ok s' ∧ s'.Size n ∧ s' = { s with hght := s'.hght } ∧
      (∀ j, s.hght.getD j m ≠ m → s'.hght.getD j m = s.hght.getD j m) ∧
      ∀ j, (∃ k, j ≤ k ∧ s.hght.getD k m ≠ m) → LineFilled c s.pres s.hght m j (s'.hght.getD j m) := by
  unfold interpLogpHeight
  rw [if_neg (by rw [hs.hght]; omega)]
  dsimp only
  rw [hs.hght]
  rcases lastHeight_spec s.hght m n (n - 1) hs.hght (by omega) with ⟨t, e, t0, tn, ht, hrest⟩ | ⟨e, hnone⟩
  · rw [e]
    dsimp only
    obtain ⟨s1, v1, e1, inv⟩ := heightLoop_inv c s m n fuel t hp hp2 hm hf (by omega) ht t 0 (by omega) s ⟨none, none⟩
      ⟨hs, rfl, fun j hj => by omega, fun _ _ => rfl, Or.inl ⟨rfl, fun k hk => by omega⟩⟩
    rw [e1, ok_bind]
    have hk1 : ∀ j, s.hght.getD j m ≠ m → s1.hght.getD j m = s.hght.getD j m := by
      intro j hj
      by_cases h : j < t
      · exact (inv.done j h).kept hj
      · exact inv.rest j (by omega)
    have hk2 : ∀ j, (∃ k, j ≤ k ∧ s.hght.getD k m ≠ m) → LineFilled c s.pres s.hght m j (s1.hght.getD j m) := by
      rintro j ⟨k, h1, h2⟩
      have hkt : k ≤ t := by
        by_contra hc
        by_cases hkn : k ≤ n - 1
        · exact h2 (hrest k (by omega) hkn)
        · exact h2 (getD_ge _ _ _ (by rw [hs.hght]; omega))
      by_cases h : j < t
      · exact inv.done j h
      · obtain rfl : j = t := by omega
        rw [inv.rest j (le_refl _)]
        exact ⟨fun _ => rfl, fun a b hab => absurd (hab.next j hab.below hab.above) ht, fun h => absurd h ht⟩
    by_cases htop : t < n - 1
    · rw [if_pos htop, idx_ok (by rw [inv.size.pres]; omega) m, ok_bind, idx_ok (by rw [inv.size.hght]; omega) m, ok_bind,
        idx_ok (by rw [inv.size.temp]; omega) m, ok_bind, idx_ok (by rw [inv.size.dwpt]; omega) m, ok_bind]
      obtain ⟨s', e', g1, g2, g3⟩ := extendLoop_ok c m (-9999) n (n - (t + 1)) (t + 1) s1
        ⟨s1.pres.getD t m, s1.hght.getD t m, s1.temp.getD t m, s1.dwpt.getD t m⟩ inv.size (by omega)
      refine ⟨s', e', g1, by rw [g2, inv.others], fun j hj => ?_, fun j hj => ?_⟩
      · rw [g3 j (Or.inr (by rw [hk1 j hj]; exact hj)), hk1 j hj]
      · obtain ⟨k, h1, h2⟩ := hj
        have hkt : k ≤ t := by
          by_contra hc
          by_cases hkn : k ≤ n - 1
          · exact h2 (hrest k (by omega) hkn)
          · exact h2 (getD_ge _ _ _ (by rw [hs.hght]; omega))
        rw [g3 j (Or.inl (by omega))]
        exact hk2 j ⟨k, h1, h2⟩
    · rw [if_neg htop]
      exact ⟨s1, rfl, inv.size, inv.others, hk1, hk2⟩
  · rw [e]
    dsimp only
    obtain ⟨s', e', g1, g2, g3⟩ := extendLoop_ok c m (-9999) n n 0 s ⟨m, m, m, m⟩ hs (by omega)
    refine ⟨s', e', g1, g2, fun j hj => g3 j (Or.inr hj), fun j hj => ?_⟩
    obtain ⟨k, h1, h2⟩ := hj
    obtain rfl : k = 0 := by
      by_contra hc
      by_cases hkn : k ≤ n - 1
      · exact h2 (hnone k (by omega) hkn)
      · exact h2 (getD_ge _ _ _ (by rw [hs.hght]; omega))
    obtain rfl : j = 0 := by omega
    rw [g3 0 (Or.inr h2)]
    exact ⟨fun _ => rfl, fun a b hab => absurd hab.below (by omega), fun h => absurd h h2⟩

/-! ## More rounds change nothing -/

theorem findTop_mono (s : Snd α) (m pres : α) (f f' l : Nat) (ptop : α) (ztop : Option α) (r : α × Option α) (hf : f ≤ f')
    (h : findTop s m pres f l ptop ztop = .ok r) : findTop s m pres f' l ptop ztop = .ok r := by
  induction f generalizing f' l ptop ztop with
  | zero =>
    by_cases hp : pres ≤ ptop
    · rw [findTop, if_pos hp] at h; cases h
    · rw [findTop_stop _ _ _ _ _ _ _ hp] at h ⊢; exact h
  | succ f ih =>
    obtain ⟨g, rfl⟩ : ∃ g, f' = g + 1 := ⟨f' - 1, by omega⟩
    by_cases hp : pres ≤ ptop
    · rw [findTop, if_pos hp] at h ⊢
      obtain ⟨z, e1, h⟩ := run_inv h
      rw [e1, ok_bind]
      split at h
      · rename_i hz
        rw [if_pos hz]
        obtain ⟨p, e2, h⟩ := run_inv h
        rw [e2, ok_bind]
        exact ih g _ _ _ (by omega) h
      · rename_i hz
        rw [if_neg hz]
        exact ih g _ _ _ (by omega) h
    · rw [findTop_stop _ _ _ _ _ _ _ hp] at h ⊢; exact h

theorem heightStep_mono (c : Calc α) (m : α) (f f' i : Nat) (s : Snd α) (v : BotTop α) (r : Snd α × BotTop α) (hf : f ≤ f')
    (h : heightStep c m f i s v = .ok r) : heightStep c m f' i s v = .ok r := by
  unfold heightStep at h ⊢
  obtain ⟨p, e1, h⟩ := run_inv h
  obtain ⟨z, e2, h⟩ := run_inv h
  rw [e1, ok_bind, e2, ok_bind]
  split at h
  · rename_i hp; rw [if_pos hp]; exact h
  · rename_i hp
    rw [if_neg hp]
    split at h
    · rename_i hz; rw [if_pos hz]; exact h
    · rename_i hz
      rw [if_neg hz]
      obtain ⟨bot, zt⟩ := v
      cases bot with
      | none => exact h
      | some b =>
        dsimp only at h ⊢
        obtain ⟨t, e3, h⟩ := run_inv h
        rw [findTop_mono s m p f f' _ _ _ t hf e3, ok_bind]
        exact h

theorem heightLoop_mono (c : Calc α) (m : α) (f f' N i : Nat) (s : Snd α) (v : BotTop α) (r : Snd α) (hf : f ≤ f')
    (h : heightLoop c m f N i s v = .ok r) : heightLoop c m f' N i s v = .ok r := by
  induction N generalizing i s v with
  | zero => exact h
  | succ N ih =>
    rw [heightLoop] at h ⊢
    obtain ⟨q, e1, h⟩ := run_inv h
    rw [heightStep_mono c m f f' i s v q hf e1, ok_bind]
    exact ih _ _ _ h

theorem logpHeight_mono (c : Calc α) (m : α) (f f' : Nat) (s r : Snd α) (hf : f ≤ f') (h : interpLogpHeight c m f s = .ok r) :
    interpLogpHeight c m f' s = .ok r := by
  unfold interpLogpHeight at h ⊢
  split at h
  · cases h
  · rename_i h0
    rw [if_neg h0]
    dsimp only at h ⊢
    cases e : lastHeight s.hght m (s.hght.length - 1) with
    | none => rw [e] at h; exact h
    | some t =>
      rw [e] at h
      dsimp only at h ⊢
      obtain ⟨q, e1, h⟩ := run_inv h
      rw [heightLoop_mono c m f f' _ _ _ _ q hf e1, ok_bind]
      exact h

/-! ## Moist heights -/

theorem firstFull_ok (s : Snd α) (m : α) (n N i : Nat) (hs : s.Size n) (hi : i + N ≤ n) :
    firstFull s m N i = .ok none ∨ ∃ k, firstFull s m N i = .ok (some k) ∧ i ≤ k ∧ k < i + N := by
  induction N generalizing i with
  | zero => exact Or.inl rfl
  | succ N ih =>
    have hrec : firstFull s m N (i + 1) = .ok none ∨ ∃ k, firstFull s m N (i + 1) = .ok (some k) ∧ i ≤ k ∧ k < i + (N + 1) := by
      rcases ih (i + 1) (by omega) with h | ⟨k, h, h1, h2⟩
      · exact Or.inl h
      · exact Or.inr ⟨k, h, by omega, by omega⟩
    rw [firstFull, idx_ok (by rw [hs.pres]; omega) m, ok_bind]
    split
    · rw [idx_ok (by rw [hs.temp]; omega) m, ok_bind]
      split
      · rw [idx_ok (by rw [hs.hght]; omega) m, ok_bind]
        split
        · exact Or.inr ⟨i, rfl, le_refl _, by omega⟩
        · exact hrec
      · exact hrec
    · exact hrec

theorem moistScan_ok (c : Calc α) (s : Snd α) (m pi ti : α) (n N j : Nat) (b : Layer α) (hl : List α) (hs : s.Size n) (hj : j + N = n)
    (hh : hl.length = n) :
    ∃ r, moistScan c s m pi ti N j b hl = .ok r ∧ r.hlist.length = n ∧
      ((r.found = none ∧ r.jlev = n ∧ ∀ k, j ≤ k → k < n → s.hght.getD k m = m ∨ s.temp.getD k m = m) ∨
        ∃ z, r.found = some (r.jlev, s.hght.getD r.jlev m, z) ∧ j ≤ r.jlev ∧ r.jlev < n ∧
          s.hght.getD r.jlev m ≠ m ∧ s.temp.getD r.jlev m ≠ m ∧
          ∀ k, j ≤ k → k < r.jlev → s.hght.getD k m = m ∨ s.temp.getD k m = m) := by
  induction N generalizing j b hl with
  | zero => exact ⟨⟨j, none, hl⟩, rfl, hh, Or.inl ⟨rfl, by dsimp only; omega, fun k h1 h2 => by omega⟩⟩
  | succ N ih =>
    rw [moistScan, idx_ok (by rw [hs.pres]; omega) m, ok_bind, idx_ok (by rw [hs.temp]; omega) m, ok_bind, idx_ok (by rw [hs.dwpt]; omega) m, ok_bind,
      idx_ok (by rw [hs.hght]; omega) m, ok_bind]
    dsimp only
    rw [put_ok (by omega), ok_bind]
    by_cases h : s.hght.getD j m ≠ m ∧ s.temp.getD j m ≠ m
    · rw [if_pos h]
      exact ⟨_, rfl, by simpa using hh, Or.inr ⟨_, rfl, le_refl _, by dsimp only; omega, h.1, h.2, fun k h1 h2 => by dsimp only at h2; omega⟩⟩
    · rw [if_neg h]
      have hj' : s.hght.getD j m = m ∨ s.temp.getD j m = m := by
        by_cases hz : s.hght.getD j m = m
        · exact Or.inl hz
        · exact Or.inr (by_contra fun ht => h ⟨hz, ht⟩)
      have ext : ∀ {t}, (∀ k, j + 1 ≤ k → k < t → s.hght.getD k m = m ∨ s.temp.getD k m = m) →
          ∀ k, j ≤ k → k < t → s.hght.getD k m = m ∨ s.temp.getD k m = m := by
        intro t h k h1 h2
        by_cases e : k = j
        · rw [e]; exact hj'
        · exact h k (by omega) h2
      obtain ⟨r, e1, e2, e3⟩ := ih (j + 1) _ (hl.set j _) (by omega) (by simpa using hh)
      refine ⟨r, e1, e2, ?_⟩
      rcases e3 with ⟨a, b, d⟩ | ⟨z, a, b, d, e, f, g⟩
      · exact Or.inl ⟨a, b, ext d⟩
      · exact Or.inr ⟨z, a, by omega, d, e, f, ext g⟩

theorem scaleList_ok (f : α) (n N h : Nat) (hl : List α) (hh : hl.length = n) (hi : h + N ≤ n) :
    ∃ hl', scaleList f N h hl = .ok hl' ∧ hl'.length = n := by
  induction N generalizing h hl with
  | zero => exact ⟨hl, rfl, hh⟩
  | succ N ih =>
    rw [scaleList, idx_ok (by omega) 0, ok_bind, put_ok (by omega), ok_bind]
    exact ih (h + 1) _ (by simpa using hh) (by omega)

theorem storeHeights_ok (c : Calc α) (d m : α) (hl : List α) (n N i : Nat) (hbb pbb : α) (s : Snd α) (hs : s.Size n) (hh : hl.length = n)
    (hi : i + N ≤ n) : ∃ s', storeHeights c d hl N i hbb pbb s = .ok s' ∧ s'.Size n ∧ s' = { s with hght := s'.hght } ∧
      ∀ k, k < i ∨ i + N ≤ k → s'.hght.getD k m = s.hght.getD k m := by
  induction N generalizing i hbb pbb s with
  | zero => exact ⟨s, rfl, hs, rfl, fun _ _ => rfl⟩
  | succ N ih =>
    rw [storeHeights, idx_ok (by rw [hs.pres]; omega) m, ok_bind, idx_ok (by omega) m, ok_bind]
    dsimp only
    rw [put_ok (by rw [hs.hght]; omega), ok_bind]
    obtain ⟨s', e, h1, h2, h3⟩ := ih (i + 1) _ (s.pres.getD i m)
      { s with hght := s.hght.set i (moistHydrostaticHeight c hbb pbb (s.pres.getD i m) (hl.getD i m) d) }
      ⟨hs.pres, by simpa using hs.hght, hs.temp, hs.dwpt, hs.drct, hs.sped⟩ (by omega)
    refine ⟨s', e, h1, h2, fun k hk => ?_⟩
    rw [h3 k (by omega)]
    exact set_same hs.hght (by omega) (by omega)

/-- A level with temperature and height. -/
def Mandatory (s : Snd α) (m : α) (k : Nat) : Prop := s.temp.getD k m ≠ m ∧ s.hght.getD k m ≠ m

theorem moistStep_ok (c : Calc α) (m : α) (n i : Nat) (s : Snd α) (hl : List α) (hs : s.Size n) (hh : hl.length = n) (hi : i < n) :
    ∃ s' hl' k, moistStep c m s hl i = .ok (s', hl', k) ∧ s'.Size n ∧ s' = { s with hght := s'.hght } ∧ hl'.length = n ∧
      (∀ t, k = some t → i < t ∧ t < n) ∧ (∀ j, j ≤ i ∨ Mandatory s m j → s'.hght.getD j m = s.hght.getD j m) ∧
      (∀ t j, k = some t → t ≤ j → s'.hght.getD j m = s.hght.getD j m) := by
  unfold moistStep
  rw [idx_ok (by rw [hs.pres]; omega) m, ok_bind, idx_ok (by rw [hs.temp]; omega) m, ok_bind, idx_ok (by rw [hs.dwpt]; omega) m, ok_bind,
    idx_ok (by rw [hs.hght]; omega) m, ok_bind, hs.pres]
  obtain ⟨r, e1, e2, e3⟩ := moistScan_ok c s m (s.pres.getD i m) (s.temp.getD i m) n (n - (i + 1)) (i + 1)
    ⟨s.pres.getD i m, s.hght.getD i m, s.temp.getD i m, s.dwpt.getD i m⟩ hl hs (by omega) hh
  rw [e1, ok_bind]
  have hr : ∃ hl', rescale (s.hght.getD i m) i r = .ok hl' ∧ hl'.length = n := by
    unfold rescale
    rcases e3 with ⟨h, _⟩ | ⟨z, h, h1, h2, _⟩
    · rw [h]; exact ⟨_, rfl, e2⟩
    · rw [h]
      exact scaleList_ok _ n _ _ _ e2 (by omega)
  obtain ⟨hl', f1, f2⟩ := hr
  rw [f1, ok_bind]
  have hj : i + 1 ≤ r.jlev ∧ r.jlev ≤ n := by
    rcases e3 with ⟨_, h, _⟩ | ⟨_, _, h1, h2, _⟩ <;> omega
  obtain ⟨s', g1, g2, g3, g4⟩ := storeHeights_ok c (-9999) m hl' n (r.jlev - (i + 1)) (i + 1) (s.hght.getD i m) (s.pres.getD i m) s hs f2 (by omega)
  rw [g1, ok_bind]
  refine ⟨s', hl', _, rfl, g2, g3, f2, ?_, fun j hj' => ?_, fun t j ht hj' => ?_⟩
  · intro t ht
    rcases e3 with ⟨h, _⟩ | ⟨z, h, h1, h2, _⟩
    · rw [h] at ht; cases ht
    · rw [h] at ht
      obtain rfl := Option.some.inj ht
      exact ⟨by omega, h2⟩
  · by_cases hc : j < i + 1 ∨ i + 1 + (r.jlev - (i + 1)) ≤ j
    · exact g4 j hc
    · exfalso
      rcases hj' with h | h
      · omega
      · rcases e3 with ⟨_, e, h'⟩ | ⟨_, _, _, _, _, _, h'⟩
        · rcases h' j (by omega) (by omega) with e | e
          · exact h.2 e
          · exact h.1 e
        · rcases h' j (by omega) (by omega) with e | e
          · exact h.2 e
          · exact h.1 e
  · rcases e3 with ⟨h, _⟩ | ⟨z, h, h1, h2, _⟩
    · rw [h] at ht; cases ht
    · rw [h] at ht
      obtain rfl := Option.some.inj ht
      exact g4 j (Or.inr (by dsimp only at hj'; omega))

theorem moistLoop_ok (c : Calc α) (m : α) (n fuel i : Nat) (s : Snd α) (hl : List α) (hs : s.Size n) (hh : hl.length = n) (hi : i < n)
    (hf : n ≤ i + fuel) : ∃ s', moistLoop c m fuel i hl s = .ok s' ∧ s'.Size n ∧ s' = { s with hght := s'.hght } ∧
      ∀ j, j ≤ i ∨ Mandatory s m j → s'.hght.getD j m = s.hght.getD j m := by
  induction fuel generalizing i s hl with
  | zero => omega
  | succ fuel ih =>
    obtain ⟨s1, hl1, k, e, h1, h2, h3, h4, h5, h6⟩ := moistStep_ok c m n i s hl hs hh hi
    rw [moistLoop, e, ok_bind]
    cases k with
    | none => exact ⟨s1, rfl, h1, h2, h5⟩
    | some t =>
      obtain ⟨t1, t2⟩ := h4 t rfl
      obtain ⟨s', e', g1, g2, g3⟩ := ih t s1 hl1 h1 h3 t2 (by omega)
      refine ⟨s', e', g1, by rw [g2, h2], fun j hj => ?_⟩
      have hcol : s1.temp = s.temp := by rw [h2]
      rw [g3 j (by
        rcases hj with h | h
        · exact Or.inl (by omega)
        · exact Or.inr ⟨by rw [hcol]; exact h.1, by rw [h5 j (Or.inr h)]; exact h.2⟩), h5 j hj]

/-- C51: `interp_moist_height` ends on every sounding, changes heights only, and keeps the height of every level that has a temperature and a
height and of every level below the first one with pressure, temperature and height. -/
theorem C51_moist (c : Calc α) (m : α) (n fuel : Nat) (s : Snd α) (hs : s.Size n) (hf : n ≤ fuel) :
    ∃ s', interpMoistHeight c m fuel s = .ok s' ∧ s'.Size n ∧ s' = { s with hght := s'.hght } ∧
      ∀ j, s.temp.getD j m ≠ m → s.hght.getD j m ≠ m → s'.hght.getD j m = s.hght.getD j m := by
  unfold interpMoistHeight
  rw [hs.pres]
  rcases firstFull_ok s m n n 0 hs (by omega) with e | ⟨k, e, h1, h2⟩
  · rw [e, ok_bind]
    exact ⟨s, rfl, hs, rfl, fun _ _ _ => rfl⟩
  · rw [e, ok_bind]
    obtain ⟨s', e', g1, g2, g3⟩ := moistLoop_ok c m n fuel k s (List.replicate n (-9999)) hs (by simp) (by omega) (by omega)
    exact ⟨s', e', g1, g2, fun j a b => g3 j (Or.inr ⟨a, b⟩)⟩

end

/-! ## Properties -/

/-- C51: on positive, falling pressures of at most 2000 hPa the interpolation ends, only heights change, present heights stay, and a gap between
two heights is filled from the line over log pressure through these two.  Not for other pressures, see `C51_endless` and `C51_unbound`. -/
theorem C51_heights_partial (m : ℝ) (hm : m ≤ 0) (n : Nat) (s : Snd ℝ) (hs : s.Size n) (hn : 0 < n) (hp : Falling s.pres m n)
    (hp0 : 0 < s.pres.getD 0 m) (hp2 : ∀ k, s.pres.getD k m ≤ 2000) :
    ∃ s', (∀ fuel, n ≤ fuel → interpLogpHeight realCalc m fuel s = .ok s') ∧ s'.Size n ∧ s' = { s with hght := s'.hght } ∧
      (∀ j, s.hght.getD j m ≠ m → s'.hght.getD j m = s.hght.getD j m) ∧
      (∀ a j b, Around s.hght m a j b →
        s'.hght.getD j m = onLine (s.pres.getD a m) (s.hght.getD a m) (s.pres.getD b m) (s.hght.getD b m) (s.pres.getD j m)) ∧
      ∀ j k, j < k → s.hght.getD k m ≠ m → (∀ i, i ≤ j → s.hght.getD i m = m) → s'.hght.getD j m = m := by
  have hne : ∀ k, k < n → s.pres.getD k m ≠ m := by
    intro k hk
    have : 0 < s.pres.getD k m := by
      cases k with
      | zero => exact hp0
      | succ k => exact (hp k (k + 1) (by omega) hk).1
    linarith
  obtain ⟨s', e, h1, h2, h3, h4⟩ := logpHeight_spec realCalc m n s hs hn hp hp2 hne n (le_refl _)
  refine ⟨s', fun fuel hf => ?_, h1, h2, h3, fun a j b hab => ?_, fun j k hjk hk hi => ?_⟩
  · exact logpHeight_mono realCalc m n fuel s s' hf e
  · rw [(h4 j ⟨b, hab.above.le, hab.high⟩).line a b hab]
    have hbn : b < n := by have := getD_ne_lt hab.high; rwa [hs.hght] at this
    have f1 := hp a j hab.below (by have := hab.above; omega)
    have f2 := hp j b hab.above hbn
    unfold logLine onLine realCalc
    dsimp only
    rw [Real.log_div f1.1.ne' f1.2.1.ne', Real.log_div f2.1.ne' f1.2.1.ne']
  · exact (h4 j ⟨k, hjk.le, hk⟩).none (hi j (le_refl _)) (fun i h => hi i (by omega))

/-- A gap below a level of more pressure. -/
def endlessSample : Snd ℚ := ⟨[1000, 900, 950], [0, -9999, 500], [0, 0, 0], [0, 0, 0], [0, 0, 0], [0, 0, 0]⟩

theorem findTop_endless (f : Nat) : ∀ z, findTop endlessSample (-9999) 900 f 2 950 z = .error .outOfFuel := by
  induction f with
  | zero => intro z; rw [findTop, if_pos (by norm_num)]
  | succ f ih =>
    intro z
    rw [findTop, if_pos (by norm_num), show idx endlessSample.hght 2 = .ok 500 from rfl, ok_bind, if_pos (by norm_num),
      show idx endlessSample.pres 2 = .ok 950 from rfl, ok_bind]
    exact ih _

/-- C51: it can run forever; here a level without height lies below a level of higher pressure. -/
theorem C51_endless (c : Calc ℚ) (fuel : Nat) : interpLogpHeight c (-9999) fuel endlessSample = .error .outOfFuel := by
  have h2 : heightStep c (-9999) fuel 1 endlessSample ⟨some (1000, 0, 2000), none⟩ = .error .outOfFuel := by
    unfold heightStep
    rw [show idx endlessSample.pres 1 = .ok 900 from rfl, ok_bind, show idx endlessSample.hght 1 = .ok (-9999) from rfl, ok_bind,
      if_neg (by norm_num), if_neg (by simp)]
    dsimp only
    have : findTop endlessSample (-9999) 900 fuel (1 + 1) 2000 none = .error .outOfFuel := by
      cases fuel with
      | zero => rw [findTop, if_pos (by norm_num)]
      | succ f =>
        rw [findTop, if_pos (by norm_num), show idx endlessSample.hght (1 + 1) = .ok 500 from rfl, ok_bind, if_pos (by norm_num),
          show idx endlessSample.pres (1 + 1) = .ok 950 from rfl, ok_bind]
        exact findTop_endless f _
    rw [this]
    rfl
  unfold interpLogpHeight
  rw [if_neg (by decide)]
  dsimp only
  rw [show lastHeight endlessSample.hght (-9999) (endlessSample.hght.length - 1) = some 2 by decide +kernel]
  dsimp only
  have h1 : heightStep c (-9999) fuel 0 endlessSample ⟨none, none⟩ = .ok (endlessSample, ⟨some (1000, 0, 2000), none⟩) := by
    unfold heightStep
    rw [show idx endlessSample.pres 0 = .ok 1000 from rfl, ok_bind, show idx endlessSample.hght 0 = .ok 0 from rfl, ok_bind,
      if_neg (by norm_num), if_pos (by norm_num)]
  have h3 : heightLoop c (-9999) fuel 2 0 endlessSample ⟨none, none⟩ = .error .outOfFuel := by
    rw [heightLoop, h1, ok_bind, heightLoop, h2]
    rfl
  rw [h3]
  rfl

/-- Pressures above 2000 hPa. -/
def unboundSample : Snd ℚ := ⟨[2200, 2100, 900], [0, -9999, 500], [0, 0, 0], [0, 0, 0], [0, 0, 0], [0, 0, 0]⟩

/-- C51: with pressures above 2000 hPa a variable is used before it is assigned. -/
theorem C51_unbound (c : Calc ℚ) (fuel : Nat) : interpLogpHeight c (-9999) fuel unboundSample = .error .unbound := by
  unfold interpLogpHeight
  rw [if_neg (by decide)]
  dsimp only
  rw [show lastHeight unboundSample.hght (-9999) (unboundSample.hght.length - 1) = some 2 by decide +kernel]
  dsimp only
  have h1 : heightStep c (-9999) fuel 0 unboundSample ⟨none, none⟩ = .ok (unboundSample, ⟨some (2200, 0, 2000), none⟩) := by
    unfold heightStep
    rw [show idx unboundSample.pres 0 = .ok 2200 from rfl, ok_bind, show idx unboundSample.hght 0 = .ok 0 from rfl, ok_bind,
      if_neg (by norm_num), if_pos (by norm_num)]
  have h2 : heightStep c (-9999) fuel 1 unboundSample ⟨some (2200, 0, 2000), none⟩ = .error .unbound := by
    unfold heightStep
    rw [show idx unboundSample.pres 1 = .ok 2100 from rfl, ok_bind, show idx unboundSample.hght 1 = .ok (-9999) from rfl, ok_bind,
      if_neg (by norm_num), if_neg (by simp)]
    dsimp only
    rw [findTop_stop _ _ _ _ _ _ _ (by norm_num)]
    rfl
  have h3 : heightLoop c (-9999) fuel 2 0 unboundSample ⟨none, none⟩ = .error .unbound := by
    rw [heightLoop, h1, ok_bind, heightLoop, h2]
    rfl
  rw [h3]
  rfl

/-- Scale heights multiplied together with the missing mark: level 1 has no temperature and lies between two levels with temperature and height,
yet it gets a height, computed from the missing mark (here with a made-up logarithm). -/
def markSample : Snd ℚ := ⟨[1000, 900, 800], [0, -9999, 2000], [20, -9999, 10], [-9999, -9999, -9999], [0, 0, 0], [0, 0, 0]⟩

theorem C51_mark : ∃ s', interpMoistHeight ⟨fun x => x - 1, fun x => x + 1⟩ (-9999) 3 markSample = .ok s' ∧
    s'.temp.getD 1 0 = -9999 ∧ s'.hght.getD 1 0 < -1000 ∧ s'.hght.getD 1 0 ≠ -9999 := by
  refine ⟨_, by with_unfolding_all rfl, ?_⟩
  decide +kernel

/-- Falling pressures with a gap. -/
noncomputable def heightSample : Snd ℝ := ⟨[1000, 900, 800], [0, -9999, 2000], [20, -9999, 10], [-9999, -9999, -9999], [0, 0, 0], [0, 0, 0]⟩

example : heightSample.Size 3 ∧ Falling heightSample.pres (-9999) 3 ∧ (∀ k, heightSample.pres.getD k (-9999) ≤ 2000) ∧
    Around heightSample.hght (-9999) 0 1 2 := by
  refine ⟨⟨rfl, rfl, rfl, rfl, rfl, rfl⟩, ?_, ?_, ⟨by omega, by omega, ?_, ?_, ?_⟩⟩
  · intro i j h1 h2
    have : i < 3 := by omega
    interval_cases j <;> interval_cases i <;> simp [heightSample] <;> norm_num
  · intro k
    by_cases h : k < 3
    · interval_cases k <;> simp [heightSample] <;> norm_num
    · rw [getD_ge _ _ _ (by simp [heightSample]; omega)]; norm_num
  · simp [heightSample]
  · simp [heightSample]; norm_num
  · intro k h1 h2; interval_cases k; simp [heightSample]

end Gempak
