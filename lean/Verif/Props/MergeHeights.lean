import Verif.Proof.MergeHeights

/-!
# C96: winds by height that are merged
-/

namespace Gempak

set_option linter.unusedSectionVars false

open Spec

section
variable {α : Type} [Field α] [LinearOrder α] [IsStrictOrderedRing α]

/-- The lower part of winds cut to the wind of the surface: its first one when that is at height zero, nothing otherwise. -/
def Spec.surfaceWind (p : SndPart α) : Option (SndPart α) :=
  match p.at "HGHT" 0 with
  | .ok z => if z = 0 then some (p.map fun c => (c.1, c.2.take 1)) else none
  | .error _ => none

/-- The report without significant winds above the surface in the lower part. -/
def Spec.withoutLowWinds (ps : SndParts α) : SndParts α :=
  ⟨ps.selv, fun x => if x = "PPBB" then (ps.part "PPBB").bind surfaceWind else ps.part x⟩

/-- Heights increase and are given at all levels, though not always at the surface (the missing value is less than all heights); no level is below a
surface that has a pressure. -/
structure Spec.Rising (s : Snd α) (m : α) : Prop where
  inc : s.hght.Pairwise (· < ·)
  low : ∀ z ∈ s.hght, m ≤ z
  ground : s.pres.getD 0 m ≠ m → ∀ P ∈ s.pres, P ≤ s.pres.getD 0 m

/-- The lowest level of which the place is known: the surface when it has a pressure and a height, the level after it otherwise. -/
def Spec.lowest (s : Snd α) (m : α) : Nat := if s.pres.getD 0 m ≠ m ∧ s.hght.getD 0 m ≠ m then 0 else 1

theorem cut_col (p : SndPart α) (k : String) :
    SndPart.col (p.map fun c => (c.1, c.2.take 1)) k = (p.col k).map (List.take 1) := by
  unfold SndPart.col
  induction p with
  | nil => rfl
  | cons c p ih =>
    rw [List.map_cons, List.find?_cons, List.find?_cons]
    dsimp only
    by_cases h : c.1 = k
    · simp only [h, decide_true]; rfl
    · simp only [h, decide_false]; exact ih

theorem cut_at (p : SndPart α) (k : String) : SndPart.at (p.map fun c => (c.1, c.2.take 1)) k 0 = p.at k 0 := by
  unfold SndPart.at
  rw [cut_col]
  cases p.col k with
  | error e => rfl
  | ok l => cases l <;> rfl

theorem cut_onPressure {p : SndPart α} {m : α} (h : ¬ OnPressure p m) : ¬ OnPressure (p.map fun c => (c.1, c.2.take 1)) m := by
  rintro (e | ⟨hs, e, z, hz, h1⟩)
  · refine h (Or.inl ?_)
    rw [List.any_map] at e
    exact e
  · rw [cut_col] at e
    cases hc : p.col "HGHT" with
    | error x => rw [hc] at e; cases e
    | ok l =>
      rw [hc] at e
      obtain rfl := Except.ok.inj e
      exact h (Or.inr ⟨l, hc, z, List.mem_of_mem_take hz, h1⟩)

theorem windCoord_high {ps : SndParts α} {m : α} {name : String} {p : SndPart α} {n : Nat} {b : Bool × Option (SndPart α)} (hp : ps.part name = some p)
    (hn : ¬ OnPressure p m) (h : windCoord ps m name n = .ok b) : b = (true, some p) := by
  unfold windCoord at h
  split at h
  · rw [← Except.ok.inj h, hp]
  · have e : ps.get name = .ok p := by unfold SndParts.get; rw [hp]
    rw [e, ok_bind, if_neg (fun e => hn (Or.inl e))] at h
    obtain ⟨hs, hh, h⟩ := run_inv h
    split at h
    · rename_i e
      obtain ⟨z, g1, g2⟩ := List.any_eq_true.1 e
      exact absurd (Or.inr ⟨hs, hh, z, g1, by simpa using g2⟩) hn
    · rw [← Except.ok.inj h]

/-- Both reports are the same up to the winds by height. -/
theorem low_stages [FloorRing α] {c : Calc α} {m : α} {fuel : Nat} {ps : SndParts α} {s s0 : Snd α} {p : SndPart α} {z0 : α}
    {n n' : Counts} {b b' d d' : Bool × Option (SndPart α)} {r r' : Snd α × Nat} {s1 s2 s3 s4 s5 s6 t1 t2 t3 t4 t5 t6 : Snd α}
    (hp : ps.part "PPBB" = some p) (hno : ¬ OnPressure p m) (hz : p.at "HGHT" 0 = .ok z0) (hpos : 1 ≤ n.sigW)
    (st : Stages c m fuel ps s n b d r s1 s2 s3 s4 s5 s6) (st' : Stages c m fuel (withoutLowWinds ps) s0 n' b' d' r' t1 t2 t3 t4 t5 t6) :
    s6 = t6 ∧ b'.1 = true ∧ d' = d ∧ n'.man = n.man ∧ r'.2 = r.2 ∧
      (n'.sigW = 0 ∨ (n'.sigW = 1 ∧ ∃ q, b'.2 = some q ∧ q.at "HGHT" 0 = .ok 0)) := by
  have gp : ∀ x, x ≠ "PPBB" → (withoutLowWinds ps).part x = ps.part x := fun x hx => by
    unfold Spec.withoutLowWinds; dsimp only; rw [if_neg hx]
  have gg : ∀ x, x ≠ "PPBB" → (withoutLowWinds ps).get x = ps.get x := fun x hx => by unfold SndParts.get; rw [gp x hx]
  have gc : ∀ x k, x ≠ "PPBB" → (withoutLowWinds ps).count x k = ps.count x k := fun x k hx => by unfold SndParts.count; rw [gp x hx]
  have gb : (withoutLowWinds ps).part "PPBB" = surfaceWind p := by
    unfold Spec.withoutLowWinds; dsimp only; rw [if_pos rfl, hp]; rfl
  have hb : b = (true, some p) := windCoord_high hp hno st.lower
  have hn : n = { n' with sigW := n.sigW } := by
    have h1 := st.counts
    have h2 := st'.counts
    unfold SndParts.counts at h1 h2
    rw [gc "TTAA" "PRES" (by decide), gc "PPAA" "PRES" (by decide), gc "TRPA" "PRES" (by decide), gc "MXWA" "PRES" (by decide), gc "TTBB" "PRES" (by decide),
      gc "TTCC" "PRES" (by decide), gc "TRPC" "PRES" (by decide), gc "MXWC" "SPED" (by decide), gc "TTDD" "PRES" (by decide), gc "PPDD" "SPED" (by decide),
      gc "PPCC" "SPED" (by decide)] at h2
    obtain ⟨v1, e1, h1⟩ := run_inv h1
    obtain ⟨v2, e2, h1⟩ := run_inv h1
    obtain ⟨v3, e3, h1⟩ := run_inv h1
    obtain ⟨v4, e4, h1⟩ := run_inv h1
    obtain ⟨v5, e5, h1⟩ := run_inv h1
    obtain ⟨v6, e6, h1⟩ := run_inv h1
    obtain ⟨v7, e7, h1⟩ := run_inv h1
    obtain ⟨v8, e8, h1⟩ := run_inv h1
    obtain ⟨v9, e9, h1⟩ := run_inv h1
    obtain ⟨v10, e10, h1⟩ := run_inv h1
    obtain ⟨v11, e11, h1⟩ := run_inv h1
    obtain ⟨v12, e12, h1⟩ := run_inv h1
    obtain rfl := Except.ok.inj h1
    rw [e1, ok_bind, e2, ok_bind, e3, ok_bind, e4, ok_bind, e5, ok_bind] at h2
    obtain ⟨w6, e6', h2⟩ := run_inv h2
    rw [e7, ok_bind, e8, ok_bind, e9, ok_bind, e10, ok_bind, e11, ok_bind, e12, ok_bind] at h2
    obtain rfl := Except.ok.inj h2
    rfl
  have hcnt' := (counts_each st'.counts).2.2.2.1
  have hd : d' = d := by
    have h1 := st.upper
    have h2 := st'.upper
    unfold windCoord at h1 h2
    rw [gg _ (by decide), gp _ (by decide)] at h2
    rw [hn] at h1
    exact Except.ok.inj (h2.symm.trans h1)
  have hb' : b'.1 = true ∧ (n'.sigW = 0 ∨ (n'.sigW = 1 ∧ z0 = 0 ∧ b'.2 = some (p.map fun c => (c.1, c.2.take 1)))) ∧ (z0 = 0 → n'.sigW = 1) := by
    by_cases e : z0 = 0
    · have gq : (withoutLowWinds ps).part "PPBB" = some (p.map fun c => (c.1, c.2.take 1)) := by
        rw [gb]; unfold Spec.surfaceWind; rw [hz]; dsimp only; rw [if_pos e]
      have := windCoord_high gq (cut_onPressure hno) st'.lower
      obtain ⟨col, hc, hl⟩ := count_part hcnt' _ gq
      obtain ⟨col', hc', hl'⟩ := count_part (counts_each st.counts).2.2.2.1 _ hp
      rw [cut_col, hc'] at hc
      obtain rfl := Except.ok.inj hc
      rw [List.length_take] at hl
      have h1 : n'.sigW = 1 := by omega
      exact ⟨by rw [this], Or.inr ⟨h1, e, by rw [this]⟩, fun _ => h1⟩
    · have gq : (withoutLowWinds ps).part "PPBB" = none := by
        rw [gb]; unfold Spec.surfaceWind; rw [hz]; dsimp only; rw [if_neg e]
      have h0 : n'.sigW = 0 := by
        unfold SndParts.count at hcnt'
        rw [gq] at hcnt'
        exact (Except.ok.inj hcnt').symm
      have := st'.lower
      rw [h0] at this
      unfold windCoord at this
      rw [if_pos rfl] at this
      exact ⟨by rw [← Except.ok.inj this], Or.inl h0, fun q => absurd q e⟩
  have hsig : ∀ t, surfaceSigW b'.2 b'.1 m n' t = surfaceSigW b.2 b.1 m n t := by
    intro t
    unfold surfaceSigW
    rw [if_neg (show ¬ n.sigW < 1 by omega), hb]
    dsimp only
    rw [if_pos rfl, hz, ok_bind, hb'.1]
    rcases hb'.2.1 with e | ⟨e, e0, e'⟩
    · rw [e, if_pos (by omega), if_neg (fun q => by rw [hb'.2.2 q] at e; cases e)]
    · rw [e, if_neg (by omega), e']
      dsimp only
      rw [if_pos rfl, cut_at, hz, ok_bind, cut_at, cut_at]
  have hr : r' = r := by
    have h1 := st.man
    have h2 := st'.man
    unfold mergeMandatory at h1 h2
    simp only [gg _ (show "TTAA" ≠ "PPBB" by decide), gg _ (show "TTCC" ≠ "PPBB" by decide), gg _ (show "PPAA" ≠ "PPBB" by decide),
      gg _ (show "PPCC" ≠ "PPBB" by decide), hsig] at h2
    have e0 : surfaceLevel (withoutLowWinds ps) m n' = surfaceLevel ps m n := by
      unfold surfaceLevel
      rw [gg _ (by decide), hn]; rfl
    have e1 : ∀ t, surfaceSigT (withoutLowWinds ps) m n' t = surfaceSigT ps m n t := by
      intro t
      unfold surfaceSigT
      rw [gg _ (by decide), hn]
    simp only [e0, e1] at h2
    have k1 : n'.man = n.man := by rw [hn]
    have k2 : n'.aMan = n.aMan := by rw [hn]
    have k3 : n'.manWind = n.manWind := by rw [hn]
    have k4 : n'.aManWind = n.aManWind := by rw [hn]
    rw [k1, k2, k3, k4] at h2
    exact Except.ok.inj (h2.symm.trans h1)
  have e1 : t1 = s1 := by
    have h1 := st.trop
    have h2 := st'.trop
    unfold withPart bottomOf at h1 h2
    simp only [gg _ (show "TRPA" ≠ "PPBB" by decide), gg _ (show "TRPC" ≠ "PPBB" by decide)] at h2
    rw [hn] at h1
    rw [hr] at h2
    exact Except.ok.inj (h2.symm.trans h1)
  have e2 : t2 = s2 := by
    have h1 := st.sigT
    have h2 := st'.sigT
    unfold withPart bottomOf at h1 h2
    simp only [gg _ (show "TTBB" ≠ "PPBB" by decide), gg _ (show "TTDD" ≠ "PPBB" by decide)] at h2
    rw [hn] at h1
    rw [e1] at h2
    exact Except.ok.inj (h2.symm.trans h1)
  have e3 : t3 = s3 := by
    have h1 := st.moist
    have h2 := st'.moist
    rw [e2] at h2
    exact Except.ok.inj (h2.symm.trans h1)
  have e4 : t4 = s4 := by
    have h1 := st.wind
    have h2 := st'.wind
    rw [hb'.1, hd, e3] at h2
    rw [hb, hn] at h1
    simp only [if_true] at h1 h2
    have : ∀ f1 f1' f2 : Snd α → α → Run (Snd α × α), mergePair 0 (if d.1 = true then 0 else n'.aSigW) (windBottom m) f1 f2 s3 =
        mergePair 0 (if d.1 = true then 0 else n'.aSigW) (windBottom m) f1' f2 s3 := by
      intro f1 f1' f2
      unfold mergePair whenSome
      simp
    rw [this _ (withOpt (some p) (mergeWind · m))] at h2
    exact Except.ok.inj (h2.symm.trans h1)
  have e5 : t5 = s5 := by
    have h1 := st.maxW
    have h2 := st'.maxW
    unfold withPart at h1 h2
    simp only [gg _ (show "MXWA" ≠ "PPBB" by decide), gg _ (show "MXWC" ≠ "PPBB" by decide)] at h2
    rw [hn] at h1
    rw [e4] at h2
    exact Except.ok.inj (h2.symm.trans h1)
  have e6 : t6 = s6 := by
    have h1 := st.logp
    have h2 := st'.logp
    rw [e5] at h2
    exact Except.ok.inj (h2.symm.trans h1)
  refine ⟨e6.symm, hb'.1, hd, by rw [hn], by rw [hr], ?_⟩
  rcases hb'.2.1 with e | ⟨e, e0, e'⟩
  · exact Or.inl e
  · refine Or.inr ⟨e, _, e', ?_⟩
    rw [cut_at, hz, e0]

theorem Same.sizeOf {s : Snd α} (h : Same s) : s.Size s.hght.length := by
  obtain ⟨n, h⟩ := h
  rw [h.hght]; exact h

/-- A height above the lowest level, below the highest one and one metre or more from all levels. -/
structure Spec.AmongLevels (s : Snd α) (m h : α) : Prop where
  above : ∃ z, s.hght[lowest s m]? = some z ∧ z < h
  below : ∃ z ∈ s.hght, h < z
  far : ∀ z ∈ s.hght, 1 ≤ |z - h|

/-- What happens to a wind after the loop. -/
theorem windLevel_rest [FloorRing α] {c : Calc α} {m : α} {ps : SndParts α} {n : Counts} {b d : Bool × Option (SndPart α)} {bgl : Nat} {s' s t : Snd α}
    {z R W : α} (hs : Same s) (hb : b.1 = true) (hR : R ≠ m) (h : mergeRest c m ps n b.1 d.1 b.2 d.2 bgl t s = .ok s')
    (hz : ∀ i v q, zFirst b.2 n.sigW s = .ok i → zStart m s = .ok v →
      (if i ≤ n.sigW then zLoop m b.2 d.2 n.sigW (if d.1 then n.aSigW else 0) (n.sigW + (if d.1 then n.aSigW else 0) + 2) false i n.sigW s v
        else zLoop m b.2 d.2 n.sigW (if d.1 then n.aSigW else 0) (n.sigW + (if d.1 then n.aSigW else 0) + 2) true 0 (if d.1 then n.aSigW else 0) s v) = .ok q →
      WindLevel q.1 z R W) : WindLevel s' z R W := by
  unfold mergeRest at h
  obtain ⟨x, hx, h⟩ := run_inv h
  obtain ⟨u, hu, h⟩ := run_inv h
  obtain ⟨q0, hq0, h⟩ := run_inv h
  rw [if_pos (Or.inl hb)] at hx
  obtain ⟨y, hy, hx⟩ := run_inv hx
  obtain rfl := Except.ok.inj hx
  have hsz := mergeZ_size hs hy
  rw [if_pos hb] at hy
  have hw1 : WindLevel y.1 z R W := by
    unfold mergeZ at hy
    obtain ⟨i, hi, hy⟩ := run_inv hy
    obtain ⟨v, hv, hy⟩ := run_inv hy
    obtain ⟨q, hq, hy⟩ := run_inv hy
    have hw := hz i v q hi hv hq
    obtain ⟨s2, hp, hy⟩ := run_inv hy
    obtain rfl := Except.ok.inj hy
    have hsz' : Same q.1 := by
      have hv' : s.Size v.size := by rw [zStart_levels hv]; exact hs.sizeOf
      have : q.1.Size q.2.size := by split at hq <;> exact zLoop_levels hv' hq
      exact ⟨_, this⟩
    obtain ⟨P', f1, _⟩ := C49_filled c m q.1 _ hsz'.sizeOf.pres hsz'.sizeOf.hght
    rw [f1] at hp
    obtain rfl := Except.ok.inj hp
    exact hw
  have k := C50_kept c m _ u _ hsz hu
  have hw2 : WindLevel u z R W := by
    obtain ⟨j, j1, j2, j3⟩ := hw1
    obtain ⟨k1, k2⟩ := k.2.2.2.2.2.2.1 j (by rw [getD_some m j2]; exact hR)
    have hj : j < y.2 := by
      have := (List.getElem?_eq_some_iff.1 j1).1
      rw [hsz.hght] at this
      exact this
    refine ⟨j, by rw [k.2.2.1]; exact j1, ?_, ?_⟩
    · rw [List.getD_eq_getElem?_getD, List.getElem?_eq_getElem (by rw [k.1.drct]; exact hj), getD_some m j2] at k1
      rw [List.getElem?_eq_getElem (by rw [k.1.drct]; exact hj)]
      exact congrArg some k1
    · rw [List.getD_eq_getElem?_getD, List.getElem?_eq_getElem (by rw [k.1.sped]; exact hj), getD_some m j3] at k2
      rw [List.getElem?_eq_getElem (by rw [k.1.sped]; exact hj)]
      exact congrArg some k2
  split at h
  · obtain ⟨p', _, h⟩ := run_inv h
    have hlen : y.2 ≠ 0 := by
      intro h0
      unfold idx at hq0
      rw [List.getElem?_eq_none (by rw [k.1.pres, h0])] at hq0
      cases hq0
    obtain ⟨k', hk'⟩ : ∃ k', y.2 = k' + 1 := ⟨y.2 - 1, by omega⟩
    have k1 := k.1
    rw [hk'] at k1 h
    obtain ⟨_, d2, _⟩ := mergeBelow_rows (m := m) k1 h
    obtain ⟨j, j1, j2, j3⟩ := hw2
    have hj : j < k' + 1 := by
      have := (List.getElem?_eq_some_iff.1 j1).1
      rw [k1.hght] at this
      exact this
    obtain ⟨j', r⟩ := d2 j _ _ _ _ _ _ ⟨List.getElem?_eq_getElem (by rw [k1.pres]; exact hj), j1, List.getElem?_eq_getElem (by rw [k1.temp]; exact hj),
      List.getElem?_eq_getElem (by rw [k1.dwpt]; exact hj), j2, j3⟩
    exact ⟨j', r.hght, r.drct, r.sped⟩
  · obtain rfl := Except.ok.inj h
    exact hw2

/-- The state before the first wind. -/
theorem zStart_wait {m h : α} {s : Snd α} {v : ZVars α} (hs : Same s) (hi : s.hght.Pairwise (· < ·)) (hl : ∀ z ∈ s.hght, m ≤ z)
    (hb : AmongLevels s m h) (hv : zStart m s = .ok v) : ZWait m h s v := by
  have hsz := hs.sizeOf
  obtain ⟨z0, a1, a2⟩ := hb.above
  obtain ⟨zt, b1, b2⟩ := hb.below
  obtain ⟨j, hj⟩ := List.mem_iff_getElem?.1 b1
  have hj0 := inc_lt hi a1 hj (a2.trans b2)
  have hjl := (List.getElem?_eq_some_iff.1 hj).1
  obtain ⟨z1, hz1⟩ : ∃ z1, s.hght[lowest s m + 1]? = some z1 := ⟨_, List.getElem?_eq_getElem (by omega)⟩
  have hgt : ∀ i z, s.hght[i + 1]? = some z → m < z := by
    intro i z hz
    obtain ⟨g1, g2⟩ := List.getElem?_eq_some_iff.1 hz
    have c1 := hl s.hght[i] (List.getElem_mem (by omega))
    have c2 := List.pairwise_iff_getElem.1 hi i (i + 1) (by omega) g1 (by omega)
    rw [g2] at c2
    exact c1.trans_lt c2
  have m1 := hgt _ _ hz1
  unfold zStart at hv
  obtain ⟨ps, hps, hva⟩ := run_inv hv
  obtain ⟨zs, hzs, hvb⟩ := run_inv hva
  obtain ⟨v', hv', hvc⟩ := run_inv hvb
  clear hv hva hvb
  have ep := idx_val m hps
  have ez := idx_val m hzs
  by_cases hc : s.pres.getD 0 m ≠ m ∧ s.hght.getD 0 m ≠ m
  · have e : lowest s m = 0 := if_pos hc
    rw [e] at a1 hz1 hj0
    rw [if_pos ⟨by omega, by rw [ep]; exact hc.1, by rw [ez]; exact hc.2⟩] at hv'
    obtain ⟨q1, hq1, hv'⟩ := run_inv hv'
    obtain ⟨q2, hq2, hv'⟩ := run_inv hv'
    obtain rfl := Except.ok.inj hv'
    have e1 : q1 = z0 := by rw [idx_val m hq1, getD_some m a1]
    have e2 : q2 = z1 := by rw [idx_val m hq2, getD_some m hz1]
    have m0 : q1 ≠ m := by rw [idx_val m hq1]; exact hc.2
    subst e1 e2
    rw [if_neg (by rintro (q | q); exacts [m0 q, m1.ne' q])] at hvc
    obtain rfl := Except.ok.inj hvc
    exact ⟨⟨hsz, hi, hl, fun _ => ⟨le_refl _, by dsimp only; omega, a1, hz1⟩⟩, rfl, a2, hb.far, zt, b1, b2⟩
  · have e : lowest s m = 1 := if_neg hc
    rw [e] at a1 hz1 hj0
    rw [if_neg (by rw [ep, ez]; exact fun q => hc q.2), if_pos (by omega)] at hv'
    obtain ⟨q1, hq1, hv'⟩ := run_inv hv'
    obtain ⟨q2, hq2, hv'⟩ := run_inv hv'
    obtain rfl := Except.ok.inj hv'
    have e1 : q1 = z0 := by rw [idx_val m hq1, getD_some m a1]
    have e2 : q2 = z1 := by rw [idx_val m hq2, getD_some m hz1]
    have m0 := hgt _ _ a1
    subst e1 e2
    rw [if_neg (by rintro (q | q); exacts [m0.ne' q, m1.ne' q])] at hvc
    obtain rfl := Except.ok.inj hvc
    exact ⟨⟨hsz, hi, hl, fun _ => ⟨by dsimp only; omega, by dsimp only; omega, a1, hz1⟩⟩, rfl, a2, hb.far, zt, b1, b2⟩

/-- Nothing is below the ground when no pressure is greater than the first. -/
theorem mergeBelow_none {p : SndPart α} {m : α} {N i n : Nat} {s s' : Snd α} (hn : s.Size (n + 1)) (h : mergeBelow p N i s (some (n + 1)) = .ok s')
    (hp : ∀ P ∈ s'.pres, P ≤ s'.pres.getD 0 m) : s' = s := by
  obtain ⟨d1, -, d3, -⟩ := mergeBelow_rows (m := m) hn h
  induction N generalizing i with
  | zero => exact (Except.ok.inj h).symm
  | succ N ih =>
    have h0 := h
    rw [mergeBelow] at h
    obtain ⟨pr, hpr, h⟩ := run_inv h
    obtain ⟨p0, hp0, h⟩ := run_inv h
    have e0 := idx_val m hp0
    by_cases hc : pr > p0
    · rw [if_pos hc] at h
      dsimp only at h
      obtain ⟨z, hz, h⟩ := run_inv h
      obtain ⟨t, ht, h⟩ := run_inv h
      obtain ⟨dw, hd, h⟩ := run_inv h
      obtain ⟨r, hr, h⟩ := run_inv h
      obtain ⟨w, hw, h⟩ := run_inv h
      obtain ⟨j, hj⟩ := d3 i pr z t dw r w (le_refl _) (by omega) ⟨hpr, hz, ht, hd, hr, hw⟩ (by rw [← e0]; exact hc)
      have := hp pr (List.mem_of_getElem? hj.pres)
      rw [d1, ← e0] at this
      exact absurd this (not_le.2 hc)
    · rw [if_neg hc] at h
      obtain ⟨_, _, d3', _⟩ := mergeBelow_rows (m := m) hn h
      exact ih h d3'

/-- What the sounding without the winds tells about the levels before the winds. -/
theorem rest_before [FloorRing α] {c : Calc α} {m : α} {ps : SndParts α} {n : Counts} {b d : Bool × Option (SndPart α)} {bgl : Nat} {s0 s t : Snd α}
    (hs : Same s) (hb : b.1 = true) (hn : n.sigW = 0 ∨ (n.sigW = 1 ∧ ∃ q, b.2 = some q ∧ q.at "HGHT" 0 = .ok 0))
    (h : mergeRest c m ps n b.1 d.1 b.2 d.2 bgl t s = .ok s0) (hg : Rising s0 m) :
    s0.hght = s.hght ∧ lowest s m = lowest s0 m := by
  unfold mergeRest at h
  obtain ⟨x, hx, h⟩ := run_inv h
  obtain ⟨u, hu, h⟩ := run_inv h
  obtain ⟨q0, hq0, h⟩ := run_inv h
  rw [if_pos (Or.inl hb)] at hx
  obtain ⟨y, hy, hx⟩ := run_inv hx
  obtain rfl := Except.ok.inj hx
  have hsz := mergeZ_size hs hy
  rw [if_pos hb] at hy
  have hh := hs.sizeOf
  have e1 : ∃ P', y.1 = { s with pres := P' } ∧ (s.pres.getD 0 m = m ↔ P'.getD 0 m = m) := by
    obtain ⟨P', f1, f2, f3, f4, f5⟩ := C49_filled c m s _ hh.pres hh.hght
    unfold mergeZ at hy
    obtain ⟨i, hi, hy⟩ := run_inv hy
    obtain ⟨v, hv, hy⟩ := run_inv hy
    obtain ⟨q, hq, hy⟩ := run_inv hy
    have hq1 : q.1 = s := by
      have hle : n.sigW ≤ i ∧ i ≤ n.sigW := by
        unfold zFirst at hi
        rcases hn with e | ⟨e, q', e1, e2⟩
        · rw [if_pos (by omega)] at hi
          have := Except.ok.inj hi
          omega
        · rw [if_neg (by omega), e1] at hi
          dsimp only at hi
          rw [e2, ok_bind, if_pos rfl] at hi
          have := Except.ok.inj hi
          omega
      rw [if_pos hle.2, show n.sigW + (if d.1 = true then n.aSigW else 0) + 2 = (n.sigW + (if d.1 = true then n.aSigW else 0) + 1) + 1 by omega,
        zLoop_end hle.1] at hq
      rw [← Except.ok.inj hq]
    obtain ⟨s', hp, hy⟩ := run_inv hy
    obtain rfl := Except.ok.inj hy
    rw [hq1, f1] at hp
    obtain rfl := Except.ok.inj hp
    refine ⟨P', rfl, fun e => f5 0 e (Or.inr (Or.inl fun k hk => by omega)), fun e => ?_⟩
    by_contra hc
    rw [f3 0 hc] at e
    exact hc e
  obtain ⟨P', e1, e2⟩ := e1
  have k := C50_kept c m _ u _ hsz hu
  have eh : u.hght = s.hght := by rw [k.2.2.1, e1]
  have ep : u.pres = P' := by rw [k.2.1, e1]
  split at h
  · rename_i hc
    obtain ⟨p', _, h⟩ := run_inv h
    have hlen : y.2 ≠ 0 := by
      intro h0
      unfold idx at hq0
      rw [List.getElem?_eq_none (by rw [k.1.pres, h0])] at hq0
      cases hq0
    obtain ⟨k', hk'⟩ : ∃ k', y.2 = k' + 1 := ⟨y.2 - 1, by omega⟩
    have k1 := k.1
    rw [hk'] at k1 h
    obtain ⟨d1, -⟩ := mergeBelow_rows (m := m) k1 h
    obtain rfl := mergeBelow_none k1 h (hg.ground (by rw [d1, ← idx_val m hq0]; exact hc.1))
    refine ⟨eh, ?_⟩
    unfold lowest
    simp only [ep, eh, ne_eq, e2]
  · obtain rfl := Except.ok.inj h
    refine ⟨eh, ?_⟩
    unfold lowest
    simp only [ep, eh, ne_eq, e2]

theorem stages_same [FloorRing α] {c : Calc α} {m : α} {fuel : Nat} {ps : SndParts α} {s : Snd α}
    {n : Counts} {b d : Bool × Option (SndPart α)} {r : Snd α × Nat} {s1 s2 s3 s4 s5 s6 : Snd α} (h1 : ∀ p, ps.part "TTAA" = some p → SixNames p)
    (h2 : ∀ p, ps.part "TTCC" = some p → SixNames p) (st : Stages c m fuel ps s n b d r s1 s2 s3 s4 s5 s6) : Same s6 := by
  have h1 := mergeMandatory_same h1 h2 st.man
  refine mergeLevels_same (c := c) (m := m) (f := fuel) (ps := ps) (n := n) (x := b.1) (y := d.1) (b := b.2) (d := d.2) (s := r.1) h1 ?_
  unfold mergeLevels
  rw [st.trop, ok_bind, st.sigT, ok_bind, st.moist, ok_bind, st.wind, ok_bind, st.maxW, ok_bind]
  exact st.logp

theorem at_down {p : SndPart α} {k : String} {i j : Nat} {x : α} (h : p.at k i = .ok x) (hj : j ≤ i) : ∃ y, p.at k j = .ok y := by
  unfold SndPart.at at h
  obtain ⟨col, hc, h⟩ := run_inv h
  have : i < col.length := by
    unfold idx at h
    split at h
    · rename_i w hw; exact (List.getElem?_eq_some_iff.1 hw).1
    · cases h
  exact ⟨col[j], getElem_at (List.getElem?_eq_getElem (by omega)) hc⟩

theorem idx_some {l : List α} {i : Nat} {x : α} (h : idx l i = .ok x) : l[i]? = some x := by
  unfold idx at h
  split at h
  · rename_i w hw; rw [hw, Except.ok.inj h]
  · cases h

/-- C96: a wind by height of the lower part, between the surface and the highest level, higher than the winds before it and one metre or more from
all other winds by height and from all levels that the report has without them, is a level of the merged sounding. -/
theorem C96_lower [FloorRing α] (c : Calc α) (m : α) (fuel : Nat) (ps : SndParts α) (s s0 : Snd α) (p : SndPart α)
    (h1 : ∀ p, ps.part "TTAA" = some p → SixNames p) (h2 : ∀ p, ps.part "TTCC" = some p → SixNames p)
    (hp : ps.part "PPBB" = some p) (hno : ¬ OnPressure p m) (h : mergeSounding c m fuel ps = .ok (some s))
    (h0 : mergeSounding c m fuel (withoutLowWinds ps) = .ok (some s0)) (hg : Rising s0 m)
    (k : Nat) (z R W : α) (hz : p.at "HGHT" k = .ok z) (hR : p.at "DRCT" k = .ok R) (hW : p.at "SPED" k = .ok W) (hRm : R ≠ m) (hz0 : k = 0 → z ≠ 0)
    (hb : AmongLevels s0 m z) (hl : ∀ j y, j < k → p.at "HGHT" j = .ok y → y < z) (ha : ∀ j y, j ≠ k → p.at "HGHT" j = .ok y → 1 ≤ |y - z|)
    (ha' : ∀ q, ps.part "PPDD" = some q → ¬ OnPressure q m → ∀ j y, q.at "HGHT" j = .ok y → 1 ≤ |y - z|) : WindLevel s z R W := by
  obtain ⟨n, b, d, r, s1, s2, s3, s4, s5, s6, st⟩ := merge_stages h
  obtain ⟨n', b', d', r', t1, t2, t3, t4, t5, t6, st'⟩ := merge_stages h0
  obtain ⟨z0, hz0'⟩ := at_down hz (Nat.zero_le _)
  obtain ⟨col, hc, hcl⟩ := count_part (counts_each st.counts).2.2.2.1 p hp
  have hk := at_lt hW hc
  obtain ⟨rfl, e1, rfl, e3, e4, e5⟩ := low_stages hp hno hz0' (by omega) st st'
  have hs := stages_same h1 h2 st
  obtain ⟨u1, u2⟩ := rest_before hs e1 e5 st'.rest hg
  have hbt := windCoord_high hp hno st.lower
  subst hbt
  refine windLevel_rest hs rfl hRm st.rest fun i v q hi hv hq => ?_
  have hwait := zStart_wait (h := z) hs (u1 ▸ hg.inc) (u1 ▸ hg.low) ⟨by rw [u2, ← u1]; exact hb.above, u1 ▸ hb.below, u1 ▸ hb.far⟩ hv
  have hik : i ≤ k ∧ i ≤ n.sigW := by
    unfold zFirst at hi
    rw [if_neg (by omega)] at hi
    dsimp only at hi
    rw [hz0', ok_bind] at hi
    by_cases e : z0 = 0
    · rw [if_pos e] at hi
      have := Except.ok.inj hi
      have : k ≠ 0 := by
        rintro rfl
        rw [hz] at hz0'
        exact hz0 rfl ((Except.ok.inj hz0').trans e)
      omega
    · rw [if_neg e] at hi
      obtain ⟨y, hy, hi⟩ := run_inv hi
      have := Except.ok.inj hi
      by_cases e' : z0 = y
      · rw [if_pos e'] at this
        have : k ≠ 0 := by
          rintro rfl
          rw [hz] at hz0'
          obtain ⟨y', a1, a2⟩ := hb.above
          have hy' : s0.hght[0]? = some y := by rw [u1]; exact idx_some hy
          have := inc_le hg.inc (Nat.zero_le _) hy' a1
          rw [← e', ← Except.ok.inj hz0'] at this
          exact absurd a2 (not_lt.2 this)
        omega
      · rw [if_neg e'] at this
        omega
  rw [if_pos hik.2] at hq
  refine zLoop_find_low hwait hq hik.1 (by omega) hz hR hW (fun j y _ => hl j y) ha fun hy q' hq' => ?_
  rcases windCoord_inv st.upper with ⟨e, _⟩ | ⟨p', hp', ⟨_, e, _⟩ | ⟨e, e'⟩⟩
  · rw [e] at hy; simp at hy
  · rw [e] at hy; simp at hy
  · have := windCoord_high hp' e st.upper
    rw [this] at hq'
    obtain rfl := Option.some.inj hq'
    exact ha' p' hp' e

/-- C96 (and what holds of C73): the same for the upper part, when the lower part gives a wind by height above the surface. -/
theorem C96_upper [FloorRing α] (c : Calc α) (m : α) (fuel : Nat) (ps : SndParts α) (s s0 : Snd α) (p p' : SndPart α)
    (h1 : ∀ p, ps.part "TTAA" = some p → SixNames p) (h2 : ∀ p, ps.part "TTCC" = some p → SixNames p)
    (hp : ps.part "PPBB" = some p) (hno : ¬ OnPressure p m) (hp' : ps.part "PPDD" = some p') (hno' : ¬ OnPressure p' m)
    (h : mergeSounding c m fuel ps = .ok (some s)) (h0 : mergeSounding c m fuel (withoutLowWinds ps) = .ok (some s0)) (hg : Rising s0 m)
    (j0 : Nat) (y0 W0 : α) (hj0 : p.at "HGHT" j0 = .ok y0) (hw0 : p.at "SPED" j0 = .ok W0) (hy0 : y0 ≠ 0) (hy0' : s0.hght[0]? ≠ some y0)
    (k : Nat) (z R W : α) (hz : p'.at "HGHT" k = .ok z) (hR : p'.at "DRCT" k = .ok R) (hW : p'.at "SPED" k = .ok W) (hRm : R ≠ m)
    (hb : AmongLevels s0 m z) (hl : ∀ j y, p.at "HGHT" j = .ok y → y < z) (hl' : ∀ j y, j < k → p'.at "HGHT" j = .ok y → y < z)
    (ha : ∀ j y, p.at "HGHT" j = .ok y → 1 ≤ |y - z|) (ha' : ∀ j y, j ≠ k → p'.at "HGHT" j = .ok y → 1 ≤ |y - z|) : WindLevel s z R W := by
  obtain ⟨n, b, d, r, s1, s2, s3, s4, s5, s6, st⟩ := merge_stages h
  obtain ⟨n', b', d', r', t1, t2, t3, t4, t5, t6, st'⟩ := merge_stages h0
  obtain ⟨z0, hz0'⟩ := at_down hj0 (Nat.zero_le _)
  obtain ⟨col, hc, hcl⟩ := count_part (counts_each st.counts).2.2.2.1 p hp
  have hk := at_lt hw0 hc
  obtain ⟨col', hc', hcl'⟩ := count_part (counts_each st.counts).2.2.2.2.2.2.2 p' hp'
  have hk' := at_lt hW hc'
  obtain ⟨rfl, e1, rfl, e3, e4, e5⟩ := low_stages hp hno hz0' (by omega) st st'
  have hs := stages_same h1 h2 st
  obtain ⟨u1, u2⟩ := rest_before hs e1 e5 st'.rest hg
  have hbt := windCoord_high hp hno st.lower
  have hdt := windCoord_high hp' hno' st.upper
  subst hbt hdt
  refine windLevel_rest hs rfl hRm st.rest fun i v q hi hv hq => ?_
  have hwait := zStart_wait (h := z) hs (u1 ▸ hg.inc) (u1 ▸ hg.low) ⟨by rw [u2, ← u1]; exact hb.above, u1 ▸ hb.below, u1 ▸ hb.far⟩ hv
  have hik : i < n.sigW := by
    unfold zFirst at hi
    rw [if_neg (by omega)] at hi
    dsimp only at hi
    rw [hz0', ok_bind] at hi
    have pos : j0 ≠ 0 ∨ (z0 ≠ 0 ∧ s0.hght[0]? ≠ some z0) := by
      by_cases e : j0 = 0
      · subst e
        rw [hj0] at hz0'
        obtain rfl := Except.ok.inj hz0'
        exact Or.inr ⟨hy0, hy0'⟩
      · exact Or.inl e
    by_cases e : z0 = 0
    · rw [if_pos e] at hi
      have := Except.ok.inj hi
      rcases pos with q | q
      · omega
      · exact absurd e q.1
    · rw [if_neg e] at hi
      obtain ⟨y, hy, hi⟩ := run_inv hi
      have := Except.ok.inj hi
      by_cases e' : z0 = y
      · rw [if_pos e'] at this
        rcases pos with q | q
        · omega
        · refine absurd ?_ q.2
          rw [u1, idx_some hy, e']
      · rw [if_neg e'] at this
        omega
  rw [if_pos hik.le] at hq
  exact zLoop_find_both hwait hq hik (by rw [if_pos rfl]; omega) hz hR hW hl hl' ha ha'

end

/-- Mandatory levels up to 10 hPa and winds by height, also at the surface and above 100 hPa. -/
def windyStation : SndParts ℚ :=
  ⟨100, fun x =>
    if x = "TTAA" then some [("PRES", [1000, 850, 500]), ("TEMP", [20, 10, -10]), ("DWPT", [15, 5, -20]), ("DRCT", [90, 180, 200]), ("SPED", [5, 10, 20]),
      ("HGHT", [100, 1500, 5500])]
    else if x = "TTCC" then some [("PRES", [70, 10]), ("TEMP", [-60, -40]), ("DWPT", [-80, -80]), ("DRCT", [270, 270]), ("SPED", [30, 40]),
      ("HGHT", [18000, 30000])]
    else if x = "PPBB" then some [("HGHT", [0, 900, 3000]), ("DRCT", [95, 120, 190]), ("SPED", [6, 8, 15])]
    else if x = "PPDD" then some [("HGHT", [25000]), ("DRCT", [275]), ("SPED", [35])]
    else none⟩

theorem windy_low : ∀ j y, SndPart.at (α := ℚ) [("HGHT", [0, 900, 3000]), ("DRCT", [95, 120, 190]), ("SPED", [6, 8, 15])] "HGHT" j = .ok y →
    (j = 0 ∧ y = 0) ∨ (j = 1 ∧ y = 900) ∨ (j = 2 ∧ y = 3000) := by
  intro j y h
  match j, h with
  | 0, h => exact Or.inl ⟨rfl, (Except.ok.inj h).symm⟩
  | 1, h => exact Or.inr (Or.inl ⟨rfl, (Except.ok.inj h).symm⟩)
  | 2, h => exact Or.inr (Or.inr ⟨rfl, (Except.ok.inj h).symm⟩)
  | _ + 3, h => cases h

theorem windy_high : ∀ j y, SndPart.at (α := ℚ) [("HGHT", [25000]), ("DRCT", [275]), ("SPED", [35])] "HGHT" j = .ok y → j = 0 ∧ y = 25000 := by
  intro j y h
  match j, h with
  | 0, h => exact ⟨rfl, (Except.ok.inj h).symm⟩
  | _ + 1, h => cases h

theorem windy_merge : ∃ s, mergeSounding ⟨fun x => x - 1, fun x => x + 1⟩ (-9999) 5 windyStation = .ok (some s) := by
  have h : (match mergeSounding ⟨fun x => x - 1, fun x => x + 1⟩ (-9999) 5 windyStation with | .ok (some _) => true | _ => false) = true := by decide +kernel
  revert h
  split
  · rename_i s e; intro _; exact ⟨s, e⟩
  · intro h; cases h

theorem windy_without : ∃ s, mergeSounding ⟨fun x => x - 1, fun x => x + 1⟩ (-9999) 5 (withoutLowWinds windyStation) = .ok (some s) ∧
    s.pres = [1000, 850, 500, 70, 10] ∧ s.hght = [100, 1500, 5500, 18000, 30000] := by
  have h : (mergeSounding ⟨fun x => x - 1, fun x => x + 1⟩ (-9999) 5 (withoutLowWinds windyStation)).toOption.bind (fun o => o.map fun s => (s.pres, s.hght)) =
      some ([1000, 850, 500, 70, 10], [100, 1500, 5500, 18000, 30000]) := by decide +kernel
  revert h
  match mergeSounding ⟨fun x => x - 1, fun x => x + 1⟩ (-9999) 5 (withoutLowWinds windyStation) with
  | .error _ => intro h; cases h
  | .ok none => intro h; cases h
  | .ok (some s) =>
    intro h
    have h := Option.some.inj h
    exact ⟨s, rfl, congrArg Prod.fst h, congrArg Prod.snd h⟩

example : ∃ s, mergeSounding ⟨fun x => x - 1, fun x => x + 1⟩ (-9999) 5 windyStation = .ok (some s) ∧ WindLevel s 3000 190 15 ∧ WindLevel s 25000 275 35 := by
  obtain ⟨s, hs⟩ := windy_merge
  obtain ⟨s0, hs0, h1, h2⟩ := windy_without
  have hA : ∀ p, windyStation.part "TTAA" = some p → SixNames p := by
    intro p hp
    obtain rfl := Option.some.inj hp
    unfold SixNames
    decide
  have hC : ∀ p, windyStation.part "TTCC" = some p → SixNames p := by
    intro p hp
    obtain rfl := Option.some.inj hp
    unfold SixNames
    decide
  have hB : ¬ OnPressure (α := ℚ) [("HGHT", [0, 900, 3000]), ("DRCT", [95, 120, 190]), ("SPED", [6, 8, 15])] (-9999) := by
    rintro (h | ⟨hs, h, z, hz, _, h'⟩)
    · exact absurd h (by decide)
    · obtain rfl := Except.ok.inj h
      simp at hz
      rcases hz with rfl | rfl | rfl <;> norm_num at h'
  have hD : ¬ OnPressure (α := ℚ) [("HGHT", [25000]), ("DRCT", [275]), ("SPED", [35])] (-9999) := by
    rintro (h | ⟨hs, h, z, hz, _, h'⟩)
    · exact absurd h (by decide)
    · obtain rfl := Except.ok.inj h
      simp at hz
      subst hz
      norm_num at h'
  have hR : Rising s0 (-9999) := by
    refine ⟨by rw [h2]; decide +kernel, by rw [h2]; decide +kernel, fun _ => by rw [h1]; decide +kernel⟩
  refine ⟨s, hs, ?_, ?_⟩
  · refine C96_lower _ _ _ _ s s0 _ hA hC rfl hB hs hs0 hR 2 3000 190 15 rfl rfl rfl (by norm_num) (by omega) ?_ (fun j y hj h => ?_) (fun j y hj h => ?_)
      fun q hq _ j y h => ?_
    · exact ⟨⟨100, by unfold lowest; rw [h1, h2]; rfl, by norm_num⟩, ⟨5500, by rw [h2]; decide +kernel, by norm_num⟩, by rw [h2]; decide +kernel⟩
    · rcases windy_low j y h with ⟨_, rfl⟩ | ⟨_, rfl⟩ | ⟨e, _⟩
      · norm_num
      · norm_num
      · omega
    · rcases windy_low j y h with ⟨_, rfl⟩ | ⟨_, rfl⟩ | ⟨e, _⟩
      · decide +kernel
      · decide +kernel
      · exact absurd e hj
    · obtain rfl := Option.some.inj hq
      obtain ⟨_, rfl⟩ := windy_high j y h
      decide +kernel
  · refine C96_upper _ _ _ _ s s0 _ _ hA hC rfl hB rfl hD hs hs0 hR 1 900 8 rfl rfl (by norm_num) ?_ 0 25000 275 35 rfl rfl rfl (by norm_num) ?_
      (fun j y h => ?_) (fun j y hj h => by omega) (fun j y h => ?_) fun j y hj h => absurd (windy_high j y h).1 hj
    · rw [h2]; decide +kernel
    · exact ⟨⟨100, by unfold lowest; rw [h1, h2]; rfl, by norm_num⟩, ⟨30000, by rw [h2]; decide +kernel, by norm_num⟩, by rw [h2]; decide +kernel⟩
    · rcases windy_low j y h with ⟨_, rfl⟩ | ⟨_, rfl⟩ | ⟨_, rfl⟩ <;> norm_num
    · rcases windy_low j y h with ⟨_, rfl⟩ | ⟨_, rfl⟩ | ⟨_, rfl⟩ <;> decide +kernel

/-- The same without a surface pressure, with the lower winds only. -/
def windyNoSurface : SndParts ℚ :=
  ⟨100, fun x =>
    if x = "TTAA" then some [("PRES", [-9999, 850, 500]), ("TEMP", [20, 10, -10]), ("DWPT", [15, 5, -20]), ("DRCT", [90, 180, 200]), ("SPED", [5, 10, 20]),
      ("HGHT", [100, 1500, 5500])]
    else if x = "PPBB" then some [("HGHT", [0, 900, 3000]), ("DRCT", [95, 120, 190]), ("SPED", [6, 8, 15])]
    else none⟩

/-- C96: without a surface pressure a wind by height below the first level above the surface is not merged. -/
theorem C96_no_surface : (mergeSounding ⟨fun x => x - 1, fun x => x + 1⟩ (-9999) 5 windyNoSurface).toOption.bind
    (fun o => o.map fun s => (s.hght, s.sped)) = some ([-9999, 1500, 3000, 5500], [6, 10, 15, 20]) := by decide +kernel

/-- Those above it are. -/
example : ∃ s, mergeSounding ⟨fun x => x - 1, fun x => x + 1⟩ (-9999) 5 windyNoSurface = .ok (some s) ∧ WindLevel s 3000 190 15 := by
  obtain ⟨s, hs⟩ : ∃ s, mergeSounding ⟨fun x => x - 1, fun x => x + 1⟩ (-9999) 5 windyNoSurface = .ok (some s) := by
    have h := C96_no_surface
    revert h
    match mergeSounding ⟨fun x => x - 1, fun x => x + 1⟩ (-9999) 5 windyNoSurface with
    | .error _ => intro h; cases h
    | .ok none => intro h; cases h
    | .ok (some s) => exact fun _ => ⟨s, rfl⟩
  obtain ⟨s0, hs0, h1, h2⟩ : ∃ s, mergeSounding ⟨fun x => x - 1, fun x => x + 1⟩ (-9999) 5 (withoutLowWinds windyNoSurface) = .ok (some s) ∧
      s.pres = [-9999, 850, 500] ∧ s.hght = [-9999, 1500, 5500] := by
    have h : (mergeSounding ⟨fun x => x - 1, fun x => x + 1⟩ (-9999) 5 (withoutLowWinds windyNoSurface)).toOption.bind
        (fun o => o.map fun s => (s.pres, s.hght)) = some ([-9999, 850, 500], [-9999, 1500, 5500]) := by decide +kernel
    revert h
    match mergeSounding ⟨fun x => x - 1, fun x => x + 1⟩ (-9999) 5 (withoutLowWinds windyNoSurface) with
    | .error _ => intro h; cases h
    | .ok none => intro h; cases h
    | .ok (some s) =>
      intro h
      have h := Option.some.inj h
      exact ⟨s, rfl, congrArg Prod.fst h, congrArg Prod.snd h⟩
  have hA : ∀ p, windyNoSurface.part "TTAA" = some p → SixNames p := by
    intro p hp
    obtain rfl := Option.some.inj hp
    unfold SixNames
    decide
  have hB : ¬ OnPressure (α := ℚ) [("HGHT", [0, 900, 3000]), ("DRCT", [95, 120, 190]), ("SPED", [6, 8, 15])] (-9999) := by
    rintro (h | ⟨hs, h, z, hz, _, h'⟩)
    · exact absurd h (by decide)
    · obtain rfl := Except.ok.inj h
      simp at hz
      rcases hz with rfl | rfl | rfl <;> norm_num at h'
  have hR : Rising s0 (-9999) := by
    refine ⟨by rw [h2]; decide +kernel, by rw [h2]; decide +kernel, fun h => ?_⟩
    rw [h1] at h
    exact absurd rfl h
  refine ⟨s, hs, C96_lower _ _ _ _ s s0 _ hA (fun p hp => by cases hp) rfl hB hs hs0 hR 2 3000 190 15 rfl rfl rfl (by norm_num) (by omega) ?_
    (fun j y hj h => ?_) (fun j y hj h => ?_) fun q hq _ j y h => by cases hq⟩
  · exact ⟨⟨1500, by unfold lowest; rw [h1, h2]; rfl, by norm_num⟩, ⟨5500, by rw [h2]; decide +kernel, by norm_num⟩, by rw [h2]; decide +kernel⟩
  · rcases windy_low j y h with ⟨_, rfl⟩ | ⟨_, rfl⟩ | ⟨e, _⟩
    · norm_num
    · norm_num
    · omega
  · rcases windy_low j y h with ⟨_, rfl⟩ | ⟨_, rfl⟩ | ⟨e, _⟩
    · decide +kernel
    · decide +kernel
    · exact absurd e hj

end Gempak
