/- C127: the wind of the surface when the significant winds are given by height. -/
import Verif.Props.MergeSurface

namespace Gempak

set_option linter.unusedSectionVars false

open Spec

section
variable {α : Type} [Field α] [LinearOrder α]

/-! ## Specification -/

/-- Wind of the surface when the significant winds are by height: the first of them if it is at height zero with a direction, else that of the first
mandatory level. -/
inductive Spec.GroundWind (ps : SndParts α) (m : α) : α → α → Prop
  | ground {q R W} : ps.part "PPBB" = some q → ¬ Spec.OnPressure q m → q.at "HGHT" 0 = .ok 0 → q.at "DRCT" 0 = .ok R → q.at "SPED" 0 = .ok W → R ≠ m →
      Spec.GroundWind ps m R W
  | man {q p P R W} : ps.part "PPBB" = some q → ¬ Spec.OnPressure q m → (∀ r, q.at "HGHT" 0 = .ok 0 → q.at "DRCT" 0 = .ok r → r = m) →
      ps.part "TTAA" = some p → Spec.SurfaceUsable p m P → p.at "DRCT" 0 = .ok R → p.at "SPED" 0 = .ok W → Spec.GroundWind ps m R W

/-! ## Winds by height leave the winds of levels already passed -/

variable {m : α} {hOK : α → Prop}

theorem keptRow_refl {wOK : Prop} (s : Snd α) (j : Nat) : KeptRow m hOK wOK s s j j :=
  ⟨fun _ => rfl, fun _ => rfl, fun _ _ => rfl, fun _ _ _ => ⟨rfl, rfl⟩, fun _ _ _ _ => rfl⟩

theorem keptRow_insert {s : Snd α} {n : Nat} (hs : s.Size n) (loc : Int) (p z t d r w : α) (j : Nat) :
    ∃ j', j' ≤ j + 1 ∧ KeptRow m hOK True s (s.insert loc p z t d r w) j j' := by
  obtain ⟨k, hk, hle⟩ : ∃ k : Nat, (if loc < 0 then (loc + n).toNat else min loc.toNat n) = k ∧ k ≤ n := by
    refine ⟨_, rfl, ?_⟩
    split <;> omega
  have g : ∀ (l : List α) (v : α), l.length = n → ∀ i, (pyInsert l loc v).getD i m =
      if i < k then l.getD i m else if i = k then v else l.getD (i - 1) m := by
    intro l v hl i
    rw [pyInsert_nat, hl, hk, getD_insert _ _ _ _ _ (by omega)]
  have key : ∀ (l : List α) (v : α), l.length = n → (pyInsert l loc v).getD (if j < k then j else j + 1) m = l.getD j m := by
    intro l v hl
    rw [g l v hl]
    by_cases hj : j < k
    · rw [if_pos hj, if_pos hj]
    · rw [if_neg hj, if_neg (by omega), if_neg (by omega), Nat.add_sub_cancel]
  exact ⟨if j < k then j else j + 1, by split <;> omega, fun _ => key _ _ hs.pres, fun _ => key _ _ hs.temp, fun _ _ => key _ _ hs.dwpt,
    fun _ _ _ => ⟨key _ _ hs.drct, key _ _ hs.sped⟩, fun _ _ _ _ => key _ _ hs.hght⟩

theorem keptRow_winds {s : Snd α} {loc j : Nat} {dr sp : List α} {a b : α} (h1 : put s.drct loc a = .ok dr) (h2 : put s.sped loc b = .ok sp)
    (hj : s.drct.getD j m ≠ m → s.sped.getD j m ≠ m → j ≠ loc) : KeptRow m hOK True s { s with drct := dr, sped := sp } j j :=
  ⟨fun _ => rfl, fun _ => rfl, fun _ _ => rfl, fun _ e1 e2 => ⟨getD_put_ne h1 (hj e1 e2), getD_put_ne h2 (hj e1 e2)⟩, fun _ _ _ _ => rfl⟩

theorem zClimb_up {s : Snd α} {z : α} {N : Nat} {v v' : ZVars α} (h : zClimb m s z N v = .ok v') : v.ilev ≤ v'.ilev ∧ (v'.more → v.more) := by
  induction N generalizing v with
  | zero => cases h
  | succ N ih =>
    rw [zClimb] at h
    split at h
    · rename_i hc
      split at h
      · obtain ⟨a, b⟩ := ih h
        exact ⟨by dsimp only at a; omega, fun e => hc.1⟩
      · obtain ⟨z', _, h⟩ := run_inv h
        obtain ⟨a, b⟩ := ih h
        exact ⟨by dsimp only at a; omega, fun e => hc.1⟩
    · obtain rfl := Except.ok.inj h; exact ⟨le_refl _, id⟩

theorem zPlace_at {a b c : α} {s : Snd α} {v : ZVars α} {r : Snd α × ZVars α × Bool} {j : Nat} (h : zPlace m a b c s v = .ok r) :
    KeptRow m hOK True s r.1 j j ∧ v.ilev ≤ r.2.1.ilev ∧ (r.2.1.more → v.more) := by
  unfold zPlace at h
  split at h
  · obtain rfl := Except.ok.inj h; exact ⟨keptRow_refl _ _, le_refl _, id⟩
  · split at h
    · obtain ⟨r, hr, h⟩ := run_inv h
      obtain ⟨w, hw, h⟩ := run_inv h
      split at h
      · rename_i e
        obtain ⟨_, h1, h⟩ := run_inv h
        obtain ⟨_, h2, h⟩ := run_inv h
        obtain rfl := Except.ok.inj h
        refine ⟨keptRow_winds h1 h2 ?_, le_refl _, id⟩
        rintro e1 e2 rfl
        by_cases er : r = m
        · exact e1 ((idx_val m hr) ▸ er)
        · rw [if_neg er] at hw
          exact e2 ((idx_val m hw) ▸ e.resolve_left er)
      · obtain rfl := Except.ok.inj h; exact ⟨keptRow_refl _ _, le_refl _, id⟩
    · split at h
      · obtain ⟨v', hv, h⟩ := run_inv h
        obtain rfl := Except.ok.inj h
        exact ⟨keptRow_refl _ _, zClimb_up hv⟩
      · obtain rfl := Except.ok.inj h; exact ⟨keptRow_refl _ _, le_refl _, id⟩

theorem zStore_at {a b c : α} {s : Snd α} {v : ZVars α} {r : Snd α × ZVars α} {j : Nat} (hs : Same s) (hj : j < v.ilev)
    (h : zStore m a b c s v = .ok r) : ∃ j', KeptRow m hOK True s r.1 j j' ∧ j' < r.2.ilev := by
  obtain ⟨n, hs⟩ := hs
  unfold zStore at h
  split at h
  · obtain ⟨_, _, h⟩ := run_inv h
    obtain ⟨_, _, h⟩ := run_inv h
    split at h
    · obtain ⟨_, h1, h⟩ := run_inv h
      obtain ⟨_, h2, h⟩ := run_inv h
      obtain rfl := Except.ok.inj h
      exact ⟨j, keptRow_winds h1 h2 fun _ _ => by omega, hj⟩
    · obtain rfl := Except.ok.inj h; exact ⟨j, keptRow_refl _ _, hj⟩
  · obtain rfl := Except.ok.inj h
    obtain ⟨j', hle, k⟩ := keptRow_insert (m := m) (hOK := hOK) hs (bisectLeft s.hght a) m a m m b c j
    exact ⟨j', k, by dsimp only; omega⟩

theorem zWind_at {p : SndPart α} {i : Nat} {s : Snd α} {v : ZVars α} {r : Snd α × ZVars α} {j : Nat} (hs : Same s) (hj : v.more → j < v.ilev)
    (h : zWind m p i s v = .ok r) : ∃ j', KeptRow m hOK True s r.1 j j' ∧ (r.2.more → j' < r.2.ilev) := by
  unfold zWind at h
  obtain ⟨_, _, h⟩ := run_inv h
  obtain ⟨_, _, h⟩ := run_inv h
  obtain ⟨_, _, h⟩ := run_inv h
  obtain ⟨q, hq, h⟩ := run_inv h
  obtain ⟨n, hs⟩ := hs
  obtain ⟨k, hi, hm⟩ := zPlace_at (hOK := hOK) (j := j) hq
  split at h
  · rename_i hc
    obtain ⟨j', k', hj'⟩ := zStore_at (hOK := hOK) ⟨n, zPlace_same hs hq⟩ (lt_of_lt_of_le (hj (hm hc.1)) hi) h
    exact ⟨j', k.trans k', fun _ => hj'⟩
  · obtain rfl := Except.ok.inj h
    exact ⟨j, k, fun e => lt_of_lt_of_le (hj (hm e)) hi⟩

theorem zLoop_at {b d : Option (SndPart α)} {x y N i e : Nat} {above : Bool} {s : Snd α} {v : ZVars α} {r : Snd α × ZVars α} {j : Nat}
    (hs : Same s) (hj : v.more → j < v.ilev) (h : zLoop m b d x y N above i e s v = .ok r) : ∃ j', KeptRow m hOK True s r.1 j j' := by
  induction N generalizing above i e s v j with
  | zero => cases h
  | succ N ih =>
    rw [zLoop] at h
    split at h
    · split at h
      · cases h
      · obtain ⟨q, hq, h⟩ := run_inv h
        have hsq := zWind_same hs hq
        obtain ⟨j1, k1, hj1⟩ := zWind_at (hOK := hOK) hs hj hq
        split at h
        · obtain ⟨j2, k2⟩ := ih hsq hj1 h
          exact ⟨j2, k1.trans k2⟩
        · obtain ⟨j2, k2⟩ := ih hsq hj1 h
          exact ⟨j2, k1.trans k2⟩
    · obtain rfl := Except.ok.inj h; exact ⟨j, keptRow_refl _ _⟩

theorem zStart_at {s : Snd α} {v : ZVars α} {j : Nat} (hj : ∀ k < j, s.hght.getD k m = m) (h : zStart m s = .ok v) : v.more → j < v.ilev := by
  unfold zStart at h
  obtain ⟨_, _, h⟩ := run_inv h
  obtain ⟨z, hz, h⟩ := run_inv h
  obtain ⟨w, hw, h⟩ := run_inv h
  have hw' : w.more → w.zold ≠ m → j < w.ilev := by
    split at hw
    · rename_i hc
      obtain ⟨_, _, hw⟩ := run_inv hw
      obtain ⟨_, _, hw⟩ := run_inv hw
      obtain rfl := Except.ok.inj hw
      intro _ _
      by_contra e
      exact hc.2.2 ((idx_val m hz).trans (hj 0 (by dsimp only at e; omega)))
    · split at hw
      · obtain ⟨y, hy, hw⟩ := run_inv hw
        obtain ⟨_, _, hw⟩ := run_inv hw
        obtain rfl := Except.ok.inj hw
        intro _ e'
        by_contra e
        exact e' ((idx_val m hy).trans (hj 1 (by dsimp only at e; omega)))
      · obtain rfl := Except.ok.inj hw
        intro e; cases e
  obtain rfl := Except.ok.inj h
  split
  · intro e; cases e
  · rename_i hc; exact fun e => hw' e fun e' => hc (Or.inl e')

theorem mergeZ_at {c : Calc α} {b d : Option (SndPart α)} {x y : Nat} {s : Snd α} {r : Snd α × Nat} {j0 : Nat} (hs : Same s)
    (hj0 : ∀ k < j0, s.hght.getD k m = m) (h : mergeZ c m b d x y s = .ok r) : ∃ j, KeptRow m hOK True s r.1 j0 j := by
  unfold mergeZ at h
  obtain ⟨i, hi, h⟩ := run_inv h
  obtain ⟨v, hv, h⟩ := run_inv h
  obtain ⟨q, hq, h⟩ := run_inv h
  obtain ⟨s', hp, h⟩ := run_inv h
  obtain rfl := Except.ok.inj h
  rw [if_pos (zFirst_le hi)] at hq
  obtain ⟨j, k⟩ := zLoop_at (hOK := hOK) hs (zStart_at hj0 hv) hq
  obtain ⟨n, hn⟩ := zLoop_same hs hq
  obtain ⟨P', e, l, h1, _⟩ := C49_filled c m q.1 n hn.pres hn.hght
  rw [e] at hp
  obtain rfl := Except.ok.inj hp
  obtain ⟨j', k'⟩ := (keeps_cols h1 (fun _ _ => rfl) (fun _ _ _ => rfl) (fun _ _ _ _ => ⟨rfl, rfl⟩) (fun _ _ _ _ _ => rfl) :
    KeepsRows m hOK True q.1 { q.1 with pres := P' }) j
  exact ⟨j', k.trans k'⟩

theorem rest_at [FloorRing α] {c : Calc α} {ps : SndParts α} {n : Counts} {x y : Bool} {b d : Option (SndPart α)} {g : Nat} {s0 s s' : Snd α} {j0 : Nat}
    (hs : Same s) (hj0 : ∀ k < j0, s.hght.getD k m = m) (h : mergeRest c m ps n x y b d g s0 s = .ok s') : ∃ j, KeptRow m hOK True s s' j0 j := by
  unfold mergeRest at h
  obtain ⟨r, hr, h⟩ := run_inv h
  obtain ⟨s1, h1, h⟩ := run_inv h
  obtain ⟨p0, _, h⟩ := run_inv h
  obtain ⟨⟨j, k⟩, n, hn⟩ : (∃ j, KeptRow m hOK True s r.1 j0 j) ∧ Same r.1 := by
    split at hr
    · obtain ⟨q, hq, hr⟩ := run_inv hr
      obtain rfl := Except.ok.inj hr
      exact ⟨mergeZ_at hs hj0 hq, mergeZ_same hs hq⟩
    · obtain rfl := Except.ok.inj hr; exact ⟨⟨j0, keptRow_refl _ _⟩, hs⟩
  obtain ⟨g1, e1, e2, _, _, e3, e4, e5⟩ := C50_kept c m r.1 s1 n hn h1
  have k1 : KeepsRows m hOK True r.1 s1 := keeps_cols (fun _ _ => by rw [e1]) e3 e5 (fun j _ a _ => e4 j a) (fun _ _ _ _ _ => by rw [e2])
  have k2 : KeepsRows m hOK True s1 s' := by
    split at h
    · obtain ⟨p, _, h⟩ := run_inv h
      exact keeps_below ⟨n, g1⟩ h
    · obtain rfl := Except.ok.inj h; exact KeepsRows.refl _
  obtain ⟨j1, q1⟩ := k1 j
  obtain ⟨j2, q2⟩ := k2 j1
  exact ⟨j2, (k.trans q1).trans q2⟩

/-! ## Levels below the surface have no height -/

/-- Levels of greater pressure have no height. -/
def HighMissing (m P : α) (s : Snd α) : Prop := ∀ k, P < s.pres.getD k m → s.hght.getD k m = m

theorem high_insert {P : α} {s : Snd α} {n : Nat} (hs : s.Size n) (h : HighMissing m P s) (loc : Int) (p t d r w : α) :
    HighMissing m P (s.insert loc p m t d r w) := by
  obtain ⟨k, hk, hle⟩ : ∃ k : Nat, (if loc < 0 then (loc + n).toNat else min loc.toNat n) = k ∧ k ≤ n := by
    refine ⟨_, rfl, ?_⟩
    split <;> omega
  have g : ∀ (l : List α) (v : α), l.length = n → ∀ i, (pyInsert l loc v).getD i m =
      if i < k then l.getD i m else if i = k then v else l.getD (i - 1) m := by
    intro l v hl i
    rw [pyInsert_nat, hl, hk, getD_insert _ _ _ _ _ (by omega)]
  intro i hi
  change P < (pyInsert s.pres loc p).getD i m at hi
  change (pyInsert s.hght loc m).getD i m = m
  rw [g _ _ hs.pres] at hi
  rw [g _ _ hs.hght]
  by_cases h1 : i < k
  · rw [if_pos h1] at hi ⊢; exact h i hi
  · rw [if_neg h1] at hi ⊢
    by_cases h2 : i = k
    · rw [if_pos h2]
    · rw [if_neg h2] at hi ⊢; exact h _ hi

theorem onPressure_high {P : α} {has : Nat → Run Bool} {pr : Nat → Snd α → Nat → Run (Snd α)} {fr : Nat → Snd α → α → Run (Snd α)}
    (h0 : ∀ i s loc s', Same s → pr i s loc = .ok s' → Same s')
    (h1 : ∀ i s loc s', pr i s loc = .ok s' → s'.pres = s.pres ∧ ∀ k, s.hght.getD k m = m → s'.hght.getD k m = m)
    (h2 : ∀ i s p s', fr i s p = .ok s' → ∃ t d r w, s' = s.insert (placeOf s p) p m t d r w)
    {l : List α} {i : Nat} {s : Snd α} {pbot : α} {r : Snd α × α} (hn : Same s) (hs : HighMissing m P s)
    (h : mergeOnPressure m has pr fr l i s pbot = .ok r) : HighMissing m P r.1 := by
  induction l generalizing i s pbot with
  | nil => obtain rfl := Except.ok.inj h; exact hs
  | cons x xs ih =>
    rw [mergeOnPressure] at h
    obtain ⟨ok, hok, h⟩ := run_inv h
    split at h
    · split at h
      · exact ih hn hs h
      · split at h
        · obtain ⟨s1, e1, h⟩ := run_inv h
          obtain ⟨a, b⟩ := h1 _ _ _ _ e1
          exact ih (h0 _ _ _ _ hn e1) (fun k hk => b k (hs k (by rw [a] at hk; exact hk))) h
        · obtain ⟨s1, e1, h⟩ := run_inv h
          obtain ⟨t, d, r', w, rfl⟩ := h2 _ _ _ _ e1
          obtain ⟨n, hn⟩ := hn
          exact ih ⟨n + 1, insert_size hn _ _ _ _ _ _ _⟩ (high_insert hn hs _ _ _ _ _ _) h
    · exact ih hn hs h

theorem trop_high {p : SndPart α} {P : α} {s : Snd α} {pbot : α} {r : Snd α × α} (hn : Same s) (hs : HighMissing m P s)
    (h : mergeTrop p m s pbot = .ok r) : HighMissing m P r.1 := by
  unfold mergeTrop at h
  obtain ⟨col, hc, h⟩ := run_inv h
  refine onPressure_high (fun _ _ _ _ ⟨n, hn⟩ e => ⟨n, tropPresent_same hn e⟩) (fun i s loc s' e => ⟨(tropPresent_pres e).1, fun k hk => ?_⟩)
    (fun i s p s' e => tropNew_inv e) hn hs h
  unfold tropPresent at e
  obtain ⟨_, _, e⟩ := run_inv e
  obtain ⟨s1, h1, e⟩ := run_inv e
  obtain ⟨s2, h2, e⟩ := run_inv e
  obtain ⟨hh, h3, e⟩ := run_inv e
  obtain rfl := Except.ok.inj e
  have e1 : s1.hght = s.hght := by
    split at h1
    · obtain ⟨_, _, h1⟩ := run_inv h1
      obtain ⟨_, _, h1⟩ := run_inv h1
      obtain ⟨_, _, h1⟩ := run_inv h1
      obtain ⟨_, _, h1⟩ := run_inv h1
      obtain rfl := Except.ok.inj h1
      rfl
    · obtain rfl := Except.ok.inj h1; rfl
  have e2 : s2.hght = s.hght := (setWind_cols h2).2.trans e1
  by_cases hk' : k = loc
  · obtain ⟨hl, rfl⟩ := put_val h3
    rw [getD_set _ _ _ _ _ hl, if_pos hk']
  · rw [getD_put_ne h3 hk', e2]; exact hk

theorem sigT_high {p : SndPart α} {P : α} {s : Snd α} {pbot : α} {r : Snd α × α} (hn : Same s) (hs : HighMissing m P s)
    (h : mergeSigT p m s pbot = .ok r) : HighMissing m P r.1 := by
  unfold mergeSigT at h
  obtain ⟨col, hc, h⟩ := run_inv h
  refine onPressure_high (fun _ _ _ _ ⟨n, hn⟩ e => ⟨n, sigTPresent_same hn e⟩) (fun i s loc s' e => ?_) (fun i s p s' e => sigTNew_inv e) hn hs h
  unfold sigTPresent at e
  obtain ⟨_, _, e⟩ := run_inv e
  split at e
  · obtain ⟨_, _, e⟩ := run_inv e
    obtain ⟨_, _, e⟩ := run_inv e
    obtain ⟨_, _, e⟩ := run_inv e
    obtain ⟨_, _, e⟩ := run_inv e
    obtain rfl := Except.ok.inj e
    exact ⟨rfl, fun _ => id⟩
  · obtain rfl := Except.ok.inj e; exact ⟨rfl, fun _ => id⟩

theorem wind_high {p : SndPart α} {P : α} {s : Snd α} {pbot : α} {r : Snd α × α} (hn : Same s) (hs : HighMissing m P s)
    (h : mergeWind p m s pbot = .ok r) : HighMissing m P r.1 := by
  unfold mergeWind at h
  obtain ⟨col, hc, h⟩ := run_inv h
  refine onPressure_high (fun _ _ _ _ ⟨n, hn⟩ e => ⟨n, windPresent_same hn e⟩) (fun i s loc s' e => ?_) (fun i s p s' e => windNew_inv e) hn hs h
  unfold windPresent at e
  obtain ⟨_, _, e⟩ := run_inv e
  obtain ⟨_, _, e⟩ := run_inv e
  split at e
  · obtain ⟨_, _, e⟩ := run_inv e
    obtain ⟨_, _, e⟩ := run_inv e
    obtain ⟨_, _, e⟩ := run_inv e
    obtain ⟨_, _, e⟩ := run_inv e
    obtain rfl := Except.ok.inj e
    exact ⟨rfl, fun _ => id⟩
  · obtain rfl := Except.ok.inj e; exact ⟨rfl, fun _ => id⟩

theorem pair_high {n1 n2 : Nat} {P : α} {bot : Snd α → Run α} {f1 f2 : Snd α → α → Run (Snd α × α)}
    (h1 : ∀ s p r, Same s ∧ HighMissing m P s → f1 s p = .ok r → Same r.1 ∧ HighMissing m P r.1)
    (h2 : ∀ s p r, Same s ∧ HighMissing m P s → f2 s p = .ok r → Same r.1 ∧ HighMissing m P r.1)
    {s s' : Snd α} (hs : Same s ∧ HighMissing m P s) (h : mergePair n1 n2 bot f1 f2 s = .ok s') : Same s' ∧ HighMissing m P s' := by
  rcases pair_steps h with ⟨_, _, rfl⟩ | ⟨pb, r1, r2, _, e1, e2, rfl⟩
  · exact hs
  · have g1 : Same r1.1 ∧ HighMissing m P r1.1 := by
      rcases e1 with ⟨_, e⟩ | ⟨_, rfl⟩
      · exact h1 _ _ _ hs e
      · exact hs
    rcases e2 with ⟨_, e⟩ | ⟨_, rfl⟩
    · exact h2 _ _ _ g1 e
    · exact g1

/-- Levels below the first height get none. -/
def LowKept (m : α) (s s' : Snd α) : Prop := ∀ k, (∀ l ≤ k, s.hght.getD l m = m) → s'.hght.getD k m = m

theorem firstFull_height {s : Snd α} {N i k : Nat} (h : firstFull s m N i = .ok (some k)) : s.hght.getD k m ≠ m := by
  induction N generalizing i with
  | zero => cases Except.ok.inj h
  | succ N ih =>
    rw [firstFull] at h
    obtain ⟨_, _, h⟩ := run_inv h
    split at h
    · obtain ⟨_, _, h⟩ := run_inv h
      split at h
      · obtain ⟨z, hz, h⟩ := run_inv h
        split at h
        · rename_i hc
          obtain rfl := Option.some.inj (Except.ok.inj h)
          rw [← idx_val m hz]; exact hc
        · exact ih h
      · exact ih h
    · exact ih h

theorem moist_low {c : Calc α} {s s' : Snd α} (hs : Same s) (h : interpMoistHeight c m s.pres.length s = .ok s') : LowKept m s s' := by
  obtain ⟨n, hs⟩ := hs
  intro j hj
  unfold interpMoistHeight at h
  rw [hs.pres] at h
  rcases firstFull_ok s m n n 0 hs (by omega) with e | ⟨k, e, h1, h2⟩
  · rw [e, ok_bind] at h
    obtain rfl := Except.ok.inj h
    exact hj j (le_refl _)
  · rw [e, ok_bind] at h
    obtain ⟨s2, e', _, _, g3⟩ := moistLoop_ok c m n n k s (List.replicate n (-9999)) hs (by simp) (by omega) (by omega)
    obtain rfl := Except.ok.inj (e'.symm.trans h)
    have : j < k := by
      by_contra hc
      exact firstFull_height e (hj k (by omega))
    rw [g3 j (Or.inl this.le)]
    exact hj j (le_refl _)

theorem heightStep_other {c : Calc α} {f i k : Nat} {s : Snd α} {v : BotTop α} {r : Snd α × BotTop α} (hk : k ≠ i)
    (h : heightStep c m f i s v = .ok r) : r.1.hght.getD k m = s.hght.getD k m := by
  unfold heightStep at h
  obtain ⟨_, _, h⟩ := run_inv h
  obtain ⟨_, _, h⟩ := run_inv h
  split at h
  · obtain rfl := Except.ok.inj h; rfl
  · split at h
    · obtain rfl := Except.ok.inj h; rfl
    · split at h
      · obtain rfl := Except.ok.inj h; rfl
      · obtain ⟨_, _, h⟩ := run_inv h
        split at h
        · cases h
        · obtain ⟨_, h1, h⟩ := run_inv h
          obtain rfl := Except.ok.inj h
          exact getD_put_ne h1 hk

theorem heightLoop_low {c : Calc α} {f N i k : Nat} {s s' : Snd α} {v : BotTop α} (hl : ∀ l ≤ k, s.hght.getD l m = m) (hv : i ≤ k → v.bot = none)
    (h : heightLoop c m f N i s v = .ok s') : ∀ l ≤ k, s'.hght.getD l m = m := by
  induction N generalizing i s v with
  | zero => obtain rfl := Except.ok.inj h; exact hl
  | succ N ih =>
    rw [heightLoop] at h
    obtain ⟨r, hr, h⟩ := run_inv h
    by_cases hi : i ≤ k
    · have e : r.1 = s ∧ r.2 = v := by
        unfold heightStep at hr
        obtain ⟨_, _, hr⟩ := run_inv hr
        obtain ⟨z, hz, hr⟩ := run_inv hr
        split at hr
        · obtain rfl := Except.ok.inj hr; exact ⟨rfl, rfl⟩
        · rw [if_neg (not_not.2 ((idx_val m hz).trans (hl i hi))), hv hi] at hr
          obtain rfl := Except.ok.inj hr; exact ⟨rfl, rfl⟩
      rw [e.1, e.2] at h
      exact ih hl (fun _ => hv hi) h
    · exact ih (fun l hl' => by rw [heightStep_other (by omega) hr]; exact hl l hl') (fun e => by omega) h

theorem extendLoop_low {c : Calc α} {N i k : Nat} {s s' : Snd α} {b : Layer α} (hl : ∀ l ≤ k, s.hght.getD l m = m) (hb : i ≤ k → b.z = m)
    (h : extendLoop c m m N i s b = .ok s') : ∀ l ≤ k, s'.hght.getD l m = m := by
  induction N generalizing i s b with
  | zero => obtain rfl := Except.ok.inj h; exact hl
  | succ N ih =>
    rw [extendLoop] at h
    obtain ⟨z, hz, h⟩ := run_inv h
    obtain ⟨s1, h1, h⟩ := run_inv h
    obtain ⟨t, ht, h⟩ := run_inv h
    obtain ⟨z', hz', h⟩ := run_inv h
    have g1 : ∀ l ≤ k, s1.hght.getD l m = m := by
      unfold extendStep at h1
      split at h1
      · obtain ⟨_, _, h1⟩ := run_inv h1
        obtain ⟨_, _, h1⟩ := run_inv h1
        obtain ⟨_, _, h1⟩ := run_inv h1
        obtain ⟨hh, hp, h1⟩ := run_inv h1
        obtain rfl := Except.ok.inj h1
        intro l hlk
        by_cases e : l = i
        · obtain ⟨hlt, rfl⟩ := put_val hp
          dsimp only
          rw [getD_set _ _ _ _ _ hlt, if_pos e]
          unfold moistHydrostaticHeight
          rw [if_pos (Or.inl (Or.inl (hb (by omega))))]
        · rw [getD_put_ne hp e]; exact hl l hlk
      · obtain rfl := Except.ok.inj h1; exact hl
    split at h
    · rename_i hc
      obtain ⟨_, _, h⟩ := run_inv h
      obtain ⟨_, _, h⟩ := run_inv h
      refine ih g1 (fun hi => ?_) h
      exact absurd ((idx_val m hz').trans (g1 i (by omega))) hc.2
    · exact ih g1 (fun hi => hb (by omega)) h

theorem logp_low {c : Calc α} {f : Nat} {s s' : Snd α} (hm : m = -9999) (hs : Same s) (h : interpLogpHeight c m f s = .ok s') : LowKept m s s' := by
  obtain ⟨n, hs⟩ := hs
  intro k hk
  unfold interpLogpHeight at h
  split at h
  · cases h
  · rename_i h0
    dsimp only at h
    rw [← hm] at h
    rcases lastHeight_spec s.hght m n (s.hght.length - 1) hs.hght (by rw [hs.hght] at h0 ⊢; omega) with ⟨t, e, _, _, ht, _⟩ | ⟨e, _⟩
    · rw [e] at h
      dsimp only at h
      obtain ⟨s1, h1, h⟩ := run_inv h
      have hkt : k < t := by
        by_contra hc
        exact ht (hk t (by omega))
      have g1 := heightLoop_low hk (fun _ => rfl) h1
      split at h
      · obtain ⟨_, _, h⟩ := run_inv h
        obtain ⟨_, _, h⟩ := run_inv h
        obtain ⟨_, _, h⟩ := run_inv h
        obtain ⟨_, _, h⟩ := run_inv h
        exact extendLoop_low g1 (fun e => by omega) h k (le_refl _)
      · obtain rfl := Except.ok.inj h; exact g1 k (le_refl _)
    · rw [e] at h
      exact extendLoop_low hk (fun _ => rfl) h k (le_refl _)

theorem LowKept.high {P : α} {s s' : Snd α} {n : Nat} (h : LowKept m s s') (hp : s'.pres = s.pres) (hn : s.Size n) (hn' : s'.Size n)
    (hf : s.pres.Pairwise fun x y => y < x) (hs : HighMissing m P s) : HighMissing m P s' := by
  intro k hk
  rw [hp] at hk
  by_cases hkn : k < n
  · refine h k fun l hl => hs l ?_
    rcases Nat.lt_or_eq_of_le hl with e | rfl
    · have h1 : l < s.pres.length := by rw [hn.pres]; omega
      have h2 : k < s.pres.length := by rw [hn.pres]; omega
      rw [List.getD_eq_getElem _ _ h2] at hk
      rw [List.getD_eq_getElem _ _ h1]
      exact lt_trans hk (List.pairwise_iff_getElem.1 hf l k h1 h2 e)
    · exact hk
  · rw [List.getD_eq_default]
    rw [hn'.hght]; omega

/-- The levels before the winds by height. -/
theorem Stages.high6 [FloorRing α] {c : Calc α} {fuel : Nat} {ps : SndParts α} {s : Snd α} {n : Counts} {b d : Bool × Option (SndPart α)}
    {r : Snd α × Nat} {s1 s2 s3 s4 s5 s6 : Snd α} {P : α} (hm : m = -9999) (hr : GoodReport ps m) (st : Stages c m fuel ps s n b d r s1 s2 s3 s4 s5 s6)
    (h0 : HighMissing m P r.1) : HighMissing m P s6 := by
  obtain ⟨k0, k2, k5⟩ := st.same5 hr
  obtain ⟨p0, f0, _, _, _, _⟩ := mandatory_fall hr st.counts st.lower st.man
  have f1 : PFall m p0 s1.pres := pair_fall (fun _ _ _ a e => by obtain ⟨p, e⟩ := withPart_inv e; exact trop_fall a e)
    (fun _ _ _ a e => by obtain ⟨p, e⟩ := withPart_inv e; exact trop_fall a e) f0 st.trop
  have f2 : PFall m p0 s2.pres := pair_fall (fun _ _ _ a e => by obtain ⟨p, e⟩ := withPart_inv e; exact sigT_fall a e)
    (fun _ _ _ a e => by obtain ⟨p, e⟩ := withPart_inv e; exact sigT_fall a e) f1 st.sigT
  have g1 := pair_high (P := P) (fun _ _ _ a e => by obtain ⟨p, e⟩ := withPart_inv e; exact ⟨mergeTrop_same a.1 e, trop_high a.1 a.2 e⟩)
    (fun _ _ _ a e => by obtain ⟨p, e⟩ := withPart_inv e; exact ⟨mergeTrop_same a.1 e, trop_high a.1 a.2 e⟩) ⟨k0, h0⟩ st.trop
  have g2 := pair_high (P := P) (fun _ _ _ a e => by obtain ⟨p, e⟩ := withPart_inv e; exact ⟨mergeSigT_same a.1 e, sigT_high a.1 a.2 e⟩)
    (fun _ _ _ a e => by obtain ⟨p, e⟩ := withPart_inv e; exact ⟨mergeSigT_same a.1 e, sigT_high a.1 a.2 e⟩) g1 st.sigT
  obtain ⟨c3, k3, _⟩ := st.moist_cols k2
  have e3 : s3.pres = s2.pres := by rw [c3]
  have g3 : HighMissing m P s3 := by
    obtain ⟨n2, hn2⟩ := k2
    obtain ⟨n3, hn3⟩ := k3
    obtain rfl : n2 = n3 := by rw [← hn2.pres, ← hn3.pres, e3]
    exact (moist_low ⟨_, hn2⟩ st.moist).high e3 hn2 hn3 f2.falls g2.2
  have f4 : PFall m p0 s4.pres := pair_fall (fun _ _ _ a e => by obtain ⟨p, e⟩ := withOpt_inv e; exact wind_fall a e)
    (fun _ _ _ a e => by obtain ⟨p, e⟩ := withOpt_inv e; exact wind_fall a e) (by rw [e3]; exact f2) st.wind
  have f5 : PFall m p0 s5.pres := pair_fall (fun _ _ _ a e => by obtain ⟨p, e⟩ := withPart_inv e; exact wind_fall a e)
    (fun _ _ _ a e => by obtain ⟨p, e⟩ := withPart_inv e; exact wind_fall a e) f4 st.maxW
  have g4 := pair_high (P := P) (fun _ _ _ a e => by obtain ⟨p, e⟩ := withOpt_inv e; exact ⟨mergeWind_same a.1 e, wind_high a.1 a.2 e⟩)
    (fun _ _ _ a e => by obtain ⟨p, e⟩ := withOpt_inv e; exact ⟨mergeWind_same a.1 e, wind_high a.1 a.2 e⟩) ⟨k3, g3⟩ st.wind
  have g5 := pair_high (P := P) (fun _ _ _ a e => by obtain ⟨p, e⟩ := withPart_inv e; exact ⟨mergeWind_same a.1 e, wind_high a.1 a.2 e⟩)
    (fun _ _ _ a e => by obtain ⟨p, e⟩ := withPart_inv e; exact ⟨mergeWind_same a.1 e, wind_high a.1 a.2 e⟩) g4 st.maxW
  obtain ⟨n5, hn5⟩ := k5
  exact (logp_low hm ⟨_, hn5⟩ st.logp).high (logp_pres ⟨_, hn5⟩ st.logp) hn5 (logpHeight_same hn5 st.logp) f5.falls g5.2

/-! ## The row of the surface -/

/-- Lower winds by height as the merge sees them. -/
theorem byHeight {ps : SndParts α} {n : Nat} {b : Bool × Option (SndPart α)} {q : SndPart α} (h : windCoord ps m "PPBB" n = .ok b)
    (hq : ps.part "PPBB" = some q) (hn : ¬ OnPressure q m) : b = (true, some q) := by
  unfold windCoord at h
  split at h
  · rw [← Except.ok.inj h, hq]
  · obtain ⟨p, hp, h⟩ := run_inv h
    obtain rfl := Option.some.inj (hq.symm.trans (get_part hp))
    split at h
    · rename_i e; exact absurd (Or.inl e) hn
    · obtain ⟨hs, hh, h⟩ := run_inv h
      split at h
      · rename_i e
        obtain ⟨z, hz, e⟩ := List.any_eq_true.1 e
        exact absurd (Or.inr ⟨hs, hh, z, hz, by simpa using e⟩) hn
      · exact (Except.ok.inj h).symm

theorem GroundWind_part {ps : SndParts α} {R W : α} (h : GroundWind ps m R W) : ∃ q, ps.part "PPBB" = some q ∧ ¬ OnPressure q m := by
  cases h with
  | ground hq hn => exact ⟨_, hq, hn⟩
  | man hq hn => exact ⟨_, hq, hn⟩

/-- Significant winds by height at the surface. -/
theorem ground_wind {ps : SndParts α} {R W : α} {n : Counts} {b : Bool × Option (SndPart α)} {s1 s2 s3 : Snd α}
    (hsig : ps.count "PPBB" "SPED" = .ok n.sigW) (hb : windCoord ps m "PPBB" n.sigW = .ok b)
    (c1 : ∀ p P, ps.part "TTAA" = some p → SurfaceUsable p m P → ∃ T D R W, p.at "TEMP" 0 = .ok T ∧ p.at "DWPT" 0 = .ok D ∧ p.at "DRCT" 0 = .ok R ∧
      p.at "SPED" 0 = .ok W ∧ s1 = ⟨[P], [ps.selv], [T], [D], [R], [W]⟩)
    (k2 : s2.Size 1) (e1 : s2.drct = s1.drct) (e2 : s2.sped = s1.sped) (h3 : surfaceSigW b.2 b.1 m n s2 = .ok s3) (hW : GroundWind ps m R W) :
    s3.pres = s2.pres ∧ s3.temp = s2.temp ∧ s3.dwpt = s2.dwpt ∧ s3.hght = s2.hght ∧ s3.drct = [R] ∧ s3.sped = [W] := by
  have one : ∀ (l : List α) (v : α), l.length = 1 → l.set 0 v = [v] := by
    intro l v hl
    match l, hl with
    | [_], _ => rfl
  cases hW with
  | ground hq hn hz hR hS hm =>
    rw [byHeight hb hq hn] at h3
    obtain ⟨col, hc, hl⟩ := count_part hsig _ hq
    have hlt := at_lt hS hc
    unfold surfaceSigW at h3
    rw [if_neg (by omega)] at h3
    dsimp only at h3
    rw [if_pos rfl, hz, ok_bind, if_pos rfl, hR, ok_bind, if_pos hm] at h3
    obtain ⟨dr, h1, h3⟩ := run_inv h3
    rw [hS, ok_bind] at h3
    obtain ⟨sp, h2, h3⟩ := run_inv h3
    obtain rfl := Except.ok.inj h3
    obtain ⟨_, rfl⟩ := put_val h1
    obtain ⟨_, rfl⟩ := put_val h2
    exact ⟨rfl, rfl, rfl, rfl, one _ _ k2.drct, one _ _ k2.sped⟩
  | man hq hn hno hp hu hR hS =>
    rw [byHeight hb hq hn] at h3
    obtain ⟨_, _, R', W', _, _, g1, g2, e⟩ := c1 _ _ hp hu
    obtain rfl := Except.ok.inj (hR.symm.trans g1)
    obtain rfl := Except.ok.inj (hS.symm.trans g2)
    have same : s3 = s2 → s3.pres = s2.pres ∧ s3.temp = s2.temp ∧ s3.dwpt = s2.dwpt ∧ s3.hght = s2.hght ∧ s3.drct = [R] ∧ s3.sped = [W] := by
      rintro rfl
      exact ⟨rfl, rfl, rfl, rfl, by rw [e1, e], by rw [e2, e]⟩
    unfold surfaceSigW at h3
    dsimp only at h3
    split at h3
    · exact same (Except.ok.inj h3).symm
    · rw [if_pos rfl] at h3
      obtain ⟨z, hz, h3⟩ := run_inv h3
      split at h3
      · rename_i ez
        rw [ez] at hz
        obtain ⟨r, hr, h3⟩ := run_inv h3
        rw [if_neg (not_not.2 (hno r hz hr))] at h3
        exact same (Except.ok.inj h3).symm
      · exact same (Except.ok.inj h3).symm

/-- The first row after the mandatory levels. -/
theorem ground_row {ps : SndParts α} {P T D R W : α} {n : Counts} {b : Bool × Option (SndPart α)} {r : Snd α × Nat} {wOK : Prop}
    (hn : ps.counts = .ok n) (hb : windCoord ps m "PPBB" n.sigW = .ok b)
    (hA : ∀ p, ps.part "TTAA" = some p → SixNames p) (hC : ∀ p, ps.part "TTCC" = some p → SixNames p)
    (h : mergeMandatory ps m n b.1 b.2 = .ok r) (hT : SurfaceTemp ps m P T D) (hW : GroundWind ps m R W) :
    ∃ s Z, RowAt s 0 P Z T D R W ∧ ((∃ p x, ps.part "TTAA" = some p ∧ SurfaceUsable p m x) → Z = ps.selv) ∧ KeepsRows m hOK wOK s r.1 ∧
      r.1.pres.head? = some P := by
  have hcnt : ps.count "TTAA" "PRES" = .ok n.man ∧ ps.count "TTBB" "PRES" = .ok n.sigT ∧ ps.count "PPBB" "SPED" = .ok n.sigW := by
    unfold SndParts.counts at hn
    obtain ⟨_, e1, hn⟩ := run_inv hn
    obtain ⟨_, _, hn⟩ := run_inv hn
    obtain ⟨_, _, hn⟩ := run_inv hn
    obtain ⟨_, _, hn⟩ := run_inv hn
    obtain ⟨_, e2, hn⟩ := run_inv hn
    obtain ⟨_, e3, hn⟩ := run_inv hn
    obtain ⟨_, _, hn⟩ := run_inv hn
    obtain ⟨_, _, hn⟩ := run_inv hn
    obtain ⟨_, _, hn⟩ := run_inv hn
    obtain ⟨_, _, hn⟩ := run_inv hn
    obtain ⟨_, _, hn⟩ := run_inv hn
    obtain ⟨_, _, hn⟩ := run_inv hn
    obtain rfl := Except.ok.inj hn
    exact ⟨e1, e2, e3⟩
  unfold mergeMandatory at h
  obtain ⟨s0, h0, h⟩ := run_inv h
  obtain ⟨f, hf, h⟩ := run_inv h
  obtain ⟨s1, h1, h⟩ := run_inv h
  obtain ⟨s2, h2, h⟩ := run_inv h
  obtain ⟨s3, h3, h⟩ := run_inv h
  obtain ⟨p0, hp0, h⟩ := run_inv h
  dsimp only at h
  obtain ⟨r4, h4, h⟩ := run_inv h
  obtain ⟨r5, h5, h⟩ := run_inv h
  obtain ⟨s6, h6, h⟩ := run_inv h
  obtain ⟨s7, h7, h⟩ := run_inv h
  obtain rfl := Except.ok.inj h
  obtain ⟨c1, c2⟩ := surface_checked hcnt.1 h0 hf h1
  have k2 := surfaceSigT_same (surfaceCheck_same (surfaceLevel_same h0) h1) h2
  have k3s := surfaceSigW_same k2 h3
  have k3 : Same s3 := ⟨1, k3s⟩
  obtain ⟨t1, t2, t3, t4, t5, t6⟩ := surface_temp hcnt.2.1 c1 c2 h2 hT
  obtain ⟨w1, w2, w3, w4, w5, w6⟩ := ground_wind hcnt.2.2 hb c1 k2 t5 t6 h3 hW
  obtain ⟨Z, eZ⟩ := List.length_eq_one_iff.1 k3s.hght
  have row3 : RowAt s3 0 P Z T D R W :=
    ⟨by rw [w1, t1]; rfl, by rw [eZ]; rfl, by rw [w2, t2]; rfl, by rw [w3, t3]; rfl, by rw [w5]; rfl, by rw [w6]; rfl⟩
  have row4 : RowAt r4.1 0 P Z T D R W ∧ Same r4.1 := by
    rcases whenSome_inv h4 with ⟨_, e⟩ | ⟨_, e⟩
    · obtain ⟨p, hp, e⟩ := run_inv e
      exact ⟨(mergeMan_rows (hA p (get_part hp)) k3 e).1 _ _ _ _ _ _ _ row3, mergeMan_same (hA p (get_part hp)) k3 e⟩
    · rw [e]; exact ⟨row3, k3⟩
  have row5 : RowAt r5.1 0 P Z T D R W := by
    rcases whenSome_inv h5 with ⟨_, e⟩ | ⟨_, e⟩
    · obtain ⟨p, hp, e⟩ := run_inv e
      exact (mergeMan_rows (hC p (get_part hp)) row4.2 e).1 _ _ _ _ _ _ _ row4.1
    · rw [e]; exact row4.1
  refine ⟨r5.1, Z, row5, ?_,
    (keeps_manWinds (name := "PPAA") (nw := n.manWind) (nm := n.man) h6).trans (keeps_manWinds (name := "PPCC") (nw := n.aManWind) (nm := n.man) h7), ?_⟩
  · rintro ⟨p, x, hp, hu⟩
    obtain ⟨_, _, _, _, _, _, _, _, e⟩ := c1 p x hp hu
    rw [w4, t4, e] at eZ
    exact (List.cons.inj eZ).1.symm
  · have e6 : s6.pres = r5.1.pres := by
      split at h6
      · obtain ⟨p, hp, h6⟩ := run_inv h6
        obtain ⟨col, hc, h6⟩ := run_inv h6
        exact mergeManWind_pres h6
      · obtain rfl := Except.ok.inj h6; rfl
    have e7 : s7.pres = s6.pres := by
      split at h7
      · obtain ⟨p, hp, h7⟩ := run_inv h7
        obtain ⟨col, hc, h7⟩ := run_inv h7
        exact mergeManWind_pres h7
      · obtain rfl := Except.ok.inj h7; rfl
    dsimp only
    rw [e7, e6, List.head?_eq_getElem?]
    exact row5.pres

/-- C127: with significant winds by height the surface has the wind of the first of them if that is at height zero, else that of the first mandatory
level; pressure, temperature, dew point and height as without them. -/
theorem C127_ground [FloorRing α] (c : Calc α) (m : α) (hm : m = -9999) (fuel : Nat) (ps : SndParts α) (s : Snd α) (hr : GoodReport ps m)
    (h : mergeSounding c m fuel ps = .ok (some s)) (P T D R W : α) (hT : SurfaceTemp ps m P T D) (hW : GroundWind ps m R W) :
    ∃ j, SurfaceIn ps m s P T D R W j ∧ (R ≠ m → W ≠ m → s.drct[j]? = some R ∧ s.sped[j]? = some W) := by
  have hP := SurfaceTemp_given hT
  obtain ⟨n, b, d, r, s1, s2, s3, s4, s5, s6, st⟩ := merge_stages h
  obtain ⟨s0, Z, row, hZ, k0, hhead⟩ := ground_row (hOK := NoTropAt ps) (wOK := True) st.counts st.lower hr.man hr.upper st.man hT hW
  obtain ⟨p0, g0, _, _, hh, _⟩ := mandatory_fall hr st.counts st.lower st.man
  obtain rfl := Option.some.inj (hhead.symm.trans hh)
  have low0 : ∀ x ∈ r.1.pres, x ≤ P := by
    have hf := g0.falls
    intro x hx
    match e : r.1.pres, hf, hhead, hx with
    | y :: l, hf, hhead, hx =>
      obtain rfl := Option.some.inj hhead
      rcases List.mem_cons.1 hx with rfl | hx
      · exact le_refl _
      · exact ((List.pairwise_cons.1 hf).1 x hx).le
  have high0 : HighMissing m P r.1 := by
    intro k hk
    obtain ⟨n0, hn0⟩ := (st.same5 hr).1
    by_cases hl : k < n0
    · have h2 : k < r.1.pres.length := by rw [hn0.pres]; exact hl
      rw [List.getD_eq_getElem _ _ h2] at hk
      exact absurd hk (not_lt.2 (low0 _ (List.getElem_mem _)))
    · rw [List.getD_eq_default]
      rw [hn0.hght]; omega
  have high6 := st.high6 hm hr high0
  obtain ⟨p6, g6, _, _, k6, _⟩ := st.fall6 hr
  have hto : TropOut ps (NoTropAt ps) := fun name hname p col hp hc x hx ho => ho name hname p hp col hc x hx rfl
  have hlev : mergeLevels c m fuel ps n b.1 d.1 b.2 d.2 r.1 = .ok s6 := by
    unfold mergeLevels
    rw [st.trop, ok_bind, st.sigT, ok_bind, st.moist, ok_bind, st.wind, ok_bind, st.maxW, ok_bind]
    exact st.logp
  have kl : KeepsRows m (NoTropAt ps) True r.1 s6 := keeps_levels hto (st.same5 hr).1 hlev
  obtain ⟨j6, a6⟩ := (k0.trans kl) 0
  have g1 := getD_some m row.pres
  have ej : s6.pres[j6]? = some P := some_getD ((a6.pres (by rw [g1]; exact hP)).trans g1) hP
  have hj6 : ∀ k < j6, s6.hght.getD k m = m := by
    obtain ⟨hjl, ej⟩ := List.getElem?_eq_some_iff.1 ej
    intro k hk
    have hlt := List.pairwise_iff_getElem.1 g6.falls k j6 (by omega) hjl hk
    rw [ej] at hlt
    exact high6 k (by rw [List.getD_eq_getElem _ _ (by omega : k < s6.pres.length)]; exact hlt)
  obtain ⟨j, aj⟩ := rest_at (hOK := NoTropAt ps) k6 hj6 st.rest
  have kj := a6.trans aj
  have g2 := getD_some m row.hght
  have g3 := getD_some m row.temp
  have g4 := getD_some m row.dwpt
  have g5 := getD_some m row.drct
  have g6' := getD_some m row.sped
  have q := kj.pres
  have q1 := kj.temp
  have q2 := kj.dwpt
  have q3 := kj.wind trivial
  have q4 := kj.hght
  rw [g1] at q
  rw [g3] at q1
  rw [g3, g4] at q2
  rw [g5, g6'] at q3
  rw [g1, g2, g3] at q4
  have hw : R ≠ m → W ≠ m → s.drct[j]? = some R ∧ s.sped[j]? = some W :=
    fun e1 e2 => ⟨some_getD (q3 e1 e2).1 e1, some_getD (q3 e1 e2).2 e2⟩
  refine ⟨j, ⟨some_getD (q hP) hP, fun t => some_getD (q1 t) t, fun t e => some_getD (q2 t e) e, fun hu t z ho => ?_, fun _ => hw⟩, hw⟩
  have eZ := hZ hu
  subst eZ
  exact some_getD (q4 ho hP t z) z

end

/-! ## A case -/

/-- Surface and two mandatory levels, a significant temperature below the surface; winds by height, the first at the ground. -/
def windsAtGround : SndParts ℚ :=
  ⟨100, fun x =>
    if x = "TTAA" then some [("PRES", [1000, 850, 500]), ("TEMP", [20, 10, -10]), ("DWPT", [15, 5, -20]), ("DRCT", [90, 180, 200]), ("SPED", [5, 10, 20]),
      ("HGHT", [100, 1500, 5500])]
    else if x = "TTBB" then some [("PRES", [-9999, 1010, 900]), ("TEMP", [-9999, 21, 12]), ("DWPT", [-9999, 16, 6])]
    else if x = "PPBB" then some [("HGHT", [0, 100, 3000]), ("DRCT", [95, 185, 190]), ("SPED", [6, 12, 15])]
    else none⟩

theorem windsAtGround_temp : SurfaceTemp windsAtGround (-9999) 1000 20 15 := by
  refine .man rfl ⟨rfl, by norm_num, by norm_num, by norm_num, ?_⟩ rfl rfl ?_
  · rintro f ⟨i, ⟨t, z, h, _⟩, _⟩
    match i, h with
    | 0, h => exact (Except.ok.inj h).symm.le
    | 1, h => rw [← Except.ok.inj h]; norm_num
    | 2, h => rw [← Except.ok.inj h]; norm_num
    | _ + 3, h => cases h
  · intro b x t hb hx ht
    obtain rfl := Option.some.inj hb
    exact Or.inl (Except.ok.inj hx).symm

theorem windsAtGround_wind : GroundWind windsAtGround (-9999) 95 6 := by
  refine .ground (q := [("HGHT", [0, 100, 3000]), ("DRCT", [95, 185, 190]), ("SPED", [6, 12, 15])]) rfl ?_ rfl rfl rfl (by norm_num)
  rintro (h | ⟨hs, h, z, hz, _, hlt⟩)
  · revert h; decide
  · obtain rfl := Except.ok.inj h
    simp only [List.mem_cons, List.not_mem_nil, or_false] at hz
    rcases hz with rfl | rfl | rfl <;> revert hlt <;> norm_num

/-- The surface is the second level of the sample and has the wind reported at height zero. -/
example : ∃ s, mergeSounding ⟨fun x => x - 1, fun x => x + 1⟩ (-9999) 5 windsAtGround = .ok (some s) ∧ s.pres.take 2 = [1010, 1000] ∧
    ∃ j, SurfaceIn windsAtGround (-9999) s 1000 20 15 95 6 j ∧ s.drct[j]? = some 95 ∧ s.sped[j]? = some 6 := by
  obtain ⟨s, e, h1⟩ : ∃ s, mergeSounding ⟨fun x => x - 1, fun x => x + 1⟩ (-9999) 5 windsAtGround = .ok (some s) ∧ s.pres.take 2 = [1010, 1000] := by
    have h : (mergeSounding ⟨fun x => x - 1, fun x => x + 1⟩ (-9999) 5 windsAtGround).toOption.bind (fun o => o.map fun s => s.pres.take 2) =
      some [1010, 1000] := by decide +kernel
    match e : mergeSounding ⟨fun x => x - 1, fun x => x + 1⟩ (-9999) 5 windsAtGround with
    | .error _ => rw [e] at h; cases h
    | .ok none => rw [e] at h; cases h
    | .ok (some s) => rw [e] at h; exact ⟨s, rfl, Option.some.inj h⟩
  have hr : GoodReport windsAtGround (-9999) := by
    refine ⟨?_, ?_, ?_, ?_⟩
    · exact fun x => lt_of_lt_of_le (by norm_num) (abs_nonneg x)
    · intro p hp
      obtain rfl := Option.some.inj hp
      unfold SixNames
      decide
    · intro p hp; cases hp
    · refine Spec.SurfaceGiven.man (ps := windsAtGround) (m := (-9999 : ℚ)) (x := 1000) rfl rfl (by norm_num) (by norm_num) (by norm_num) ?_
      intro i y t z hy _ _ _ _ _
      match i, hy with
      | 0, h => exact (Except.ok.inj h).symm.le
      | 1, h => rw [← Except.ok.inj h]; norm_num
      | 2, h => rw [← Except.ok.inj h]; norm_num
      | _ + 3, h => cases h
  obtain ⟨j, hj, hw⟩ := C127_ground _ (-9999) rfl _ _ s hr e 1000 20 15 95 6 windsAtGround_temp windsAtGround_wind
  exact ⟨s, e, h1, j, hj, hw (by norm_num) (by norm_num)⟩

end Gempak
