import Verif.Props.MergeEnds

/-!
# C73: upper winds on heights without lower ones
-/

namespace Gempak

open Spec

section
variable {α : Type} [Field α] [LinearOrder α] [FloorRing α]

/-- The same parts with another PPDD part. -/
def Spec.withUpper (ps : SndParts α) (q : Option (SndPart α)) : SndParts α := ⟨ps.selv, fun x => if x = "PPDD" then q else ps.part x⟩

/-- A part with winds on heights. -/
structure Spec.OnHeights (p : SndPart α) (m : α) (z d s : List α) : Prop where
  noPres : ∀ x ∈ p, x.1 ≠ "PRES"
  hght : p.col "HGHT" = .ok z
  drct : p.col "DRCT" = .ok d
  sped : p.col "SPED" = .ok s
  high : ∀ x ∈ z, x = m ∨ 0 ≤ x

theorem withUpper_get (ps : SndParts α) (q : Option (SndPart α)) (n : String) (h : n ≠ "PPDD") : (withUpper ps q).get n = ps.get n := by
  unfold SndParts.get withUpper
  dsimp only
  rw [if_neg h]

theorem withUpper_count (ps : SndParts α) (q : Option (SndPart α)) (n k : String) (h : n ≠ "PPDD") : (withUpper ps q).count n k = ps.count n k := by
  unfold SndParts.count withUpper
  dsimp only
  rw [if_neg h]

theorem counts_inv {ps : SndParts α} {n : Counts} (h : ps.counts = .ok n) : ps.count "TTAA" "PRES" = .ok n.man ∧ ps.count "PPAA" "PRES" = .ok n.manWind ∧
    ps.count "TRPA" "PRES" = .ok n.trop ∧ ps.count "MXWA" "PRES" = .ok n.maxWind ∧ ps.count "TTBB" "PRES" = .ok n.sigT ∧
    ps.count "PPBB" "SPED" = .ok n.sigW ∧ ps.count "TTCC" "PRES" = .ok n.aMan ∧ ps.count "TRPC" "PRES" = .ok n.aTrop ∧
    ps.count "MXWC" "SPED" = .ok n.aMaxWind ∧ ps.count "TTDD" "PRES" = .ok n.aSigT ∧ ps.count "PPDD" "SPED" = .ok n.aSigW ∧
    ps.count "PPCC" "SPED" = .ok n.aManWind := by
  unfold SndParts.counts at h
  obtain ⟨_, h1, h⟩ := run_inv h
  obtain ⟨_, h2, h⟩ := run_inv h
  obtain ⟨_, h3, h⟩ := run_inv h
  obtain ⟨_, h4, h⟩ := run_inv h
  obtain ⟨_, h5, h⟩ := run_inv h
  obtain ⟨_, h6, h⟩ := run_inv h
  obtain ⟨_, h7, h⟩ := run_inv h
  obtain ⟨_, h8, h⟩ := run_inv h
  obtain ⟨_, h9, h⟩ := run_inv h
  obtain ⟨_, h10, h⟩ := run_inv h
  obtain ⟨_, h11, h⟩ := run_inv h
  obtain ⟨_, h12, h⟩ := run_inv h
  obtain rfl := Except.ok.inj h
  exact ⟨h1, h2, h3, h4, h5, h6, h7, h8, h9, h10, h11, h12⟩

theorem withUpper_counts (ps : SndParts α) (q : Option (SndPart α)) (n : Counts) (k : Nat) (h : ps.counts = .ok n)
    (hk : (withUpper ps q).count "PPDD" "SPED" = .ok k) : (withUpper ps q).counts = .ok { n with aSigW := k } := by
  obtain ⟨h1, h2, h3, h4, h5, h6, h7, h8, h9, h10, _, h12⟩ := counts_inv h
  unfold SndParts.counts
  rw [withUpper_count _ _ _ _ (by decide), h1, ok_bind, withUpper_count _ _ _ _ (by decide), h2, ok_bind, withUpper_count _ _ _ _ (by decide), h3,
    ok_bind, withUpper_count _ _ _ _ (by decide), h4, ok_bind, withUpper_count _ _ _ _ (by decide), h5, ok_bind,
    withUpper_count _ _ _ _ (by decide), h6, ok_bind, withUpper_count _ _ _ _ (by decide), h7, ok_bind, withUpper_count _ _ _ _ (by decide), h8,
    ok_bind, withUpper_count _ _ _ _ (by decide), h9, ok_bind, withUpper_count _ _ _ _ (by decide), h10, ok_bind, hk, ok_bind,
    withUpper_count _ _ _ _ (by decide), h12, ok_bind]

theorem mergePair_none (bot : Snd α → Run α) (f1 f2 : Snd α → α → Run (Snd α × α)) (s : Snd α) : mergePair 0 0 bot f1 f2 s = .ok s := by
  unfold mergePair
  rw [if_neg (by omega)]

theorem mergeZ_none (c : Calc α) (m : α) (b d d' : Option (SndPart α)) (y y' : Nat) (s : Snd α) :
    mergeZ c m b d 0 y s = mergeZ c m b d' 0 y' s := by
  have hl : ∀ (d : Option (SndPart α)) (y N : Nat) (v : ZVars α), zLoop m b d 0 y (N + 1) false 0 0 s v = .ok (s, v) := by
    intro d y N v
    rw [zLoop, if_neg (by omega)]
  unfold mergeZ zFirst
  simp only [Nat.lt_one_iff, if_true, ok_bind, le_refl, hl]

/-- C73: without winds on heights in PPBB, winds on heights in PPDD never reach the merged sounding: the result is the same for any two such
parts. -/
theorem C73_dropped (c : Calc α) (m : α) (fuel : Nat) (ps : SndParts α) (n : Counts) (hn : ps.counts = .ok n) (hb : ps.part "PPBB" = none)
    (p q : SndPart α) (z d s z' d' s' : List α) (hp : OnHeights p m z d s) (hq : OnHeights q m z' d' s') (hs : s ≠ []) (hs' : s' ≠ []) :
    mergeSounding c m fuel (withUpper ps (some p)) = mergeSounding c m fuel (withUpper ps (some q)) := by
  have hw : n.sigW = 0 := by
    have := (counts_inv hn).2.2.2.2.2.1
    unfold SndParts.count at this
    rw [hb] at this
    exact (Except.ok.inj this).symm
  have key : ∀ (p : SndPart α) (z d s : List α), OnHeights p m z d s → s ≠ [] → mergeSounding c m fuel (withUpper ps (some p)) = (do
      let r ← mergeMandatory ps m n true none
      let s ← mergeLevels c m fuel ps { n with aSigW := 0 } true true none none r.1
      let s' ← mergeRest c m ps { n with aSigW := 0 } true true none none r.2 r.1 s
      .ok (some s')) := by
    intro p z d s hp hs
    have hc : (withUpper ps (some p)).count "PPDD" "SPED" = .ok s.length := by
      unfold SndParts.count withUpper
      dsimp only
      rw [if_pos rfl]
      dsimp only
      rw [hp.sped, ok_bind]
    have hne : s.length ≠ 0 := fun h => hs (List.length_eq_zero_iff.mp h)
    unfold mergeSounding
    rw [withUpper_counts ps _ n _ hn hc, ok_bind, if_neg (by unfold Counts.total; dsimp only; omega)]
    have e1 : windCoord (withUpper ps (some p)) m "PPBB" { n with aSigW := s.length }.sigW = .ok (true, none) := by
      unfold windCoord withUpper
      rw [if_pos hw]
      dsimp only
      rw [if_neg (by decide), hb]
    have e2 : windCoord (withUpper ps (some p)) m "PPDD" { n with aSigW := s.length }.aSigW = .ok (true, some p) := by
      unfold windCoord
      rw [if_neg hne]
      have eg : (withUpper ps (some p)).get "PPDD" = .ok p := by
        unfold SndParts.get withUpper
        dsimp only
        rw [if_pos rfl]
      rw [eg, ok_bind, if_neg (by
        rw [Bool.not_eq_true, List.any_eq_false]
        intro x hx
        simpa using hp.noPres x hx), hp.hght, ok_bind, if_neg (by
        rw [Bool.not_eq_true, List.any_eq_false]
        intro x hx
        rcases hp.high x hx with e | e
        · simp [e]
        · simp [not_lt.mpr e])]
    rw [e1, ok_bind, e2, ok_bind]
    have hg : ∀ k, k ≠ "PPDD" → (withUpper ps (some p)).get k = ps.get k := fun k => withUpper_get ps _ k
    have em : mergeMandatory (withUpper ps (some p)) m { n with aSigW := s.length } true none = mergeMandatory ps m n true none := by
      unfold mergeMandatory surfaceLevel surfaceSigT surfaceSigW
      rw [hg "TTAA" (by decide), hg "TTBB" (by decide), hg "TTCC" (by decide), hg "PPAA" (by decide), hg "PPCC" (by decide)]
      rfl
    have el : ∀ x, mergeLevels c m fuel (withUpper ps (some p)) { n with aSigW := s.length } true true none (some p) x =
        mergeLevels c m fuel ps { n with aSigW := 0 } true true none none x := by
      intro x
      unfold mergeLevels bottomOf withPart
      rw [hg "TRPA" (by decide), hg "TRPC" (by decide), hg "TTBB" (by decide), hg "TTDD" (by decide), hg "MXWA" (by decide), hg "MXWC" (by decide)]
      simp only [if_true, mergePair_none]
    have er : ∀ g x y, mergeRest c m (withUpper ps (some p)) { n with aSigW := s.length } true true none (some p) g x y =
        mergeRest c m ps { n with aSigW := 0 } true true none none g x y := by
      intro g x y
      unfold mergeRest
      rw [hg "TTAA" (by decide)]
      simp only [if_true, hw]
      rw [mergeZ_none c m none (some p) none s.length 0 y]
    rw [em]
    simp only [el, er]
  rw [key p z d s hp hs, key q z' d' s' hq hs']

end

/-- A wind at 20 km. -/
def upperWind (r w : ℚ) : SndPart ℚ := [("HGHT", [20000]), ("DRCT", [r]), ("SPED", [w])]

example : OnHeights (upperWind 90 30) (-9999) [20000] [90] [30] := by
  refine ⟨by decide, rfl, rfl, rfl, ?_⟩
  intro x hx
  simp at hx
  right; rw [hx]; decide

/-- The sounding of `mergeSample` merged up to 850 hPa, with the upper wind of 30 knots nowhere in it. -/
example : (mergeSounding ⟨fun x => x - 1, fun x => x + 1⟩ (-9999) 5 (withUpper mergeSample (some (upperWind 90 30)))).toOption.bind
    (fun o => o.map Snd.sped) = (mergeSounding ⟨fun x => x - 1, fun x => x + 1⟩ (-9999) 5 (withUpper mergeSample (some (upperWind 90 99)))).toOption.bind
    (fun o => o.map Snd.sped) ∧ mergeSample.part "PPBB" = none := by
  refine ⟨?_, by decide⟩
  decide +kernel

end Gempak
