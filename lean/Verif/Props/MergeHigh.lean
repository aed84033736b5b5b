import Verif.Props.MergeSig

/-!
# C73: winds by height of the upper part of a report
-/

namespace Gempak

set_option linter.unusedSectionVars false

open Spec

section
variable {α : Type} [Field α] [LinearOrder α]

/-- A report without one part. -/
def Spec.without (ps : SndParts α) (name : String) : SndParts α := ⟨ps.selv, fun x => if x = name then none else ps.part x⟩

/-- The part gives winds by height. -/
structure Spec.ByHeight (p : SndPart α) (m : α) : Prop where
  high : ¬ OnPressure p m
  hght : ∃ z, p.col "HGHT" = .ok z
  sped : ∃ w, p.col "SPED" = .ok w

/-- The lower part gives a single wind, at height zero. -/
def Spec.OnlySurfaceWind (ps : SndParts α) (m : α) : Prop :=
  ∃ p w, ps.part "PPBB" = some p ∧ ¬ OnPressure p m ∧ p.at "HGHT" 0 = .ok 0 ∧ p.col "SPED" = .ok [w]

theorem without_part (ps : SndParts α) {name x : String} (h : x ≠ name) : (without ps name).part x = ps.part x := by
  unfold Spec.without
  dsimp only
  rw [if_neg h]

theorem without_get (ps : SndParts α) {name x : String} (h : x ≠ name) : (without ps name).get x = ps.get x := by
  unfold SndParts.get
  rw [without_part ps h]

theorem without_count (ps : SndParts α) {name x : String} (key : String) (h : x ≠ name) : (without ps name).count x key = ps.count x key := by
  unfold SndParts.count
  rw [without_part ps h]

theorem zLoop_end {m : α} {b d : Option (SndPart α)} {x y n i e : Nat} {s : Snd α} {v : ZVars α} (h : e ≤ i) :
    zLoop m b d x y (n + 1) false i e s v = .ok (s, v) := by
  unfold zLoop
  rw [if_neg (by rintro ⟨_, _⟩; omega)]

/-- Winds by height of the upper part are not looked at. -/
theorem mergeZ_upper {c : Calc α} {m : α} {b d d' : Option (SndPart α)} {x y y' : Nat} {s : Snd α}
    (h : x = 0 ∨ (x = 1 ∧ ∃ p, b = some p ∧ p.at "HGHT" 0 = .ok 0)) : mergeZ c m b d x y s = mergeZ c m b d' x y' s := by
  unfold mergeZ
  rcases h with rfl | ⟨rfl, p, rfl, hp⟩
  · have e : zFirst b 0 s = .ok 0 := by unfold zFirst; rw [if_pos (by omega)]
    rw [e, ok_bind, ok_bind]
    simp only [Nat.le_refl, if_true]
    congr 1
    funext v
    rw [show 0 + y + 2 = (y + 1) + 1 by omega, show 0 + y' + 2 = (y' + 1) + 1 by omega, zLoop_end (le_refl _), zLoop_end (le_refl _)]
  · have e : zFirst (some p) 1 s = .ok 1 := by
      unfold zFirst
      rw [if_neg (by omega)]
      dsimp only
      rw [hp, ok_bind, if_pos rfl]
    rw [e, ok_bind, ok_bind]
    simp only [Nat.le_refl, if_true]
    congr 1
    funext v
    rw [show 1 + y + 2 = (y + 2) + 1 by omega, show 1 + y' + 2 = (y' + 2) + 1 by omega, zLoop_end (le_refl _), zLoop_end (le_refl _)]

theorem mergePair_upper {n1 n2 : Nat} {bot : Snd α → Run α} {f1 f2 f2' : Snd α → α → Run (Snd α × α)} {s : Snd α} (h : n2 = 0) :
    mergePair n1 n2 bot f1 f2 s = mergePair n1 n2 bot f1 f2' s := by
  subst h
  unfold mergePair
  simp [whenSome]

/-- C73: when the lower part has no winds by height above the surface, a report merges as if the winds by height of its upper part were not there. -/
theorem C73_ignored [FloorRing α] (c : Calc α) (m : α) (fuel : Nat) (ps : SndParts α) (s : Snd α) (p : SndPart α)
    (hp : ps.part "PPDD" = some p) (hz : ByHeight p m) (hb : NoWindsByHeight ps m ∨ OnlySurfaceWind ps m)
    (h : mergeSounding c m fuel (without ps "PPDD") = .ok (some s)) : mergeSounding c m fuel ps = .ok (some s) := by
  have gp : ∀ x, x ≠ "PPDD" → (without ps "PPDD").part x = ps.part x := fun x hx => without_part ps hx
  have gg : ∀ x, x ≠ "PPDD" → (without ps "PPDD").get x = ps.get x := fun x hx => without_get ps hx
  have gc : ∀ x k, x ≠ "PPDD" → (without ps "PPDD").count x k = ps.count x k := fun x k hx => without_count ps k hx
  obtain ⟨zs, ez⟩ := hz.hght
  obtain ⟨ws, ew⟩ := hz.sped
  unfold mergeSounding at h
  obtain ⟨n, hn, h⟩ := run_inv h
  split at h
  · cases h
  · rename_i htot
    obtain ⟨b, h1, h⟩ := run_inv h
    obtain ⟨d, h2, h⟩ := run_inv h
    obtain ⟨r, h3, h⟩ := run_inv h
    obtain ⟨s1, h4, h⟩ := run_inv h
    obtain ⟨s2, h5, h⟩ := run_inv h
    obtain rfl := Option.some.inj (Except.ok.inj h)
    have k11 : n.aSigW = 0 := by
      have := (counts_each hn).2.2.2.2.2.2.2
      unfold SndParts.count Spec.without at this
      exact (Except.ok.inj this).symm
    have hd : d.1 = true := by
      rw [k11] at h2
      unfold windCoord at h2
      rw [if_pos rfl] at h2
      rw [← Except.ok.inj h2]
    have hn' : ps.counts = .ok { n with aSigW := ws.length } := by
      unfold SndParts.counts at hn ⊢
      rw [gc "TTAA" "PRES" (by decide), gc "PPAA" "PRES" (by decide), gc "TRPA" "PRES" (by decide), gc "MXWA" "PRES" (by decide), gc "TTBB" "PRES" (by decide), gc "PPBB" "SPED" (by decide),
        gc "TTCC" "PRES" (by decide), gc "TRPC" "PRES" (by decide), gc "MXWC" "SPED" (by decide), gc "TTDD" "PRES" (by decide), gc "PPCC" "SPED" (by decide)] at hn
      obtain ⟨v1, e1, hn⟩ := run_inv hn
      obtain ⟨v2, e2, hn⟩ := run_inv hn
      obtain ⟨v3, e3, hn⟩ := run_inv hn
      obtain ⟨v4, e4, hn⟩ := run_inv hn
      obtain ⟨v5, e5, hn⟩ := run_inv hn
      obtain ⟨v6, e6, hn⟩ := run_inv hn
      obtain ⟨v7, e7, hn⟩ := run_inv hn
      obtain ⟨v8, e8, hn⟩ := run_inv hn
      obtain ⟨v9, e9, hn⟩ := run_inv hn
      obtain ⟨v10, e10, hn⟩ := run_inv hn
      obtain ⟨v11, e11, hn⟩ := run_inv hn
      obtain ⟨v12, e12, hn⟩ := run_inv hn
      obtain rfl := Except.ok.inj hn
      have e11' : ps.count "PPDD" "SPED" = .ok ws.length := by
        unfold SndParts.count
        rw [hp]
        dsimp only
        rw [ew, ok_bind]
      rw [e1, ok_bind, e2, ok_bind, e3, ok_bind, e4, ok_bind, e5, ok_bind, e6, ok_bind, e7, ok_bind, e8, ok_bind, e9, ok_bind, e10, ok_bind, e11', ok_bind,
        e12, ok_bind]
    have hb' : windCoord ps m "PPBB" n.sigW = .ok b := by
      rw [← h1]
      unfold windCoord
      rw [gp _ (by decide), gg _ (by decide)]
    obtain ⟨d', hd', ed⟩ : ∃ d', windCoord ps m "PPDD" ws.length = .ok d' ∧ d'.1 = true := by
      unfold windCoord
      split
      · exact ⟨_, rfl, rfl⟩
      · have e : ps.get "PPDD" = .ok p := by unfold SndParts.get; rw [hp]
        rw [e, ok_bind, if_neg (fun e => hz.high (Or.inl e)), ez, ok_bind, if_neg]
        · exact ⟨_, rfl, rfl⟩
        · intro e
          obtain ⟨z, h1, h2⟩ := List.any_eq_true.1 e
          exact hz.high (Or.inr ⟨zs, ez, z, h1, by simpa using h2⟩)
    have h3' : mergeMandatory ps m { n with aSigW := ws.length } b.1 b.2 = .ok r := by
      rw [← h3]
      unfold mergeMandatory surfaceLevel surfaceSigT surfaceSigW
      simp only [gg _ (show "TTAA" ≠ "PPDD" by decide), gg _ (show "TTBB" ≠ "PPDD" by decide), gg _ (show "TTCC" ≠ "PPDD" by decide),
        gg _ (show "PPAA" ≠ "PPDD" by decide), gg _ (show "PPCC" ≠ "PPDD" by decide)]
      rfl
    have h4' : mergeLevels c m fuel ps { n with aSigW := ws.length } b.1 d'.1 b.2 d'.2 r.1 = .ok s1 := by
      rw [← h4, hd, ed]
      unfold mergeLevels withPart bottomOf
      simp only [gg _ (show "TRPA" ≠ "PPDD" by decide), gg _ (show "TRPC" ≠ "PPDD" by decide), gg _ (show "TTBB" ≠ "PPDD" by decide),
        gg _ (show "TTDD" ≠ "PPDD" by decide), gg _ (show "MXWA" ≠ "PPDD" by decide), gg _ (show "MXWC" ≠ "PPDD" by decide), if_true]
      rfl
    have hzero : (if b.1 = true then n.sigW else 0) = 0 ∨ ((if b.1 = true then n.sigW else 0) = 1 ∧ ∃ p, b.2 = some p ∧ p.at "HGHT" 0 = .ok 0) := by
      have cnt := (counts_each hn').2.2.2.1
      dsimp only at cnt
      by_cases e : b.1 = true
      · rw [if_pos e]
        rcases hb with hb | ⟨q, w, hq, hno, hq0, hw⟩
        · left
          rcases windCoord_inv hb' with ⟨e', _⟩ | ⟨q, hq, ⟨_, e', _⟩ | ⟨e', _⟩⟩
          · exact e'
          · rw [e] at e'; cases e'
          · rcases hb q hq with e'' | e''
            · exact absurd e'' e'
            · obtain ⟨col, hc, hl⟩ := count_part cnt q hq
              obtain rfl := Except.ok.inj (e''.symm.trans hc)
              exact hl.symm
        · right
          have h1' : n.sigW = 1 := by
            obtain ⟨col, hc, hl⟩ := count_part cnt q hq
            obtain rfl := Except.ok.inj (hw.symm.trans hc)
            exact hl.symm
          refine ⟨h1', q, ?_, hq0⟩
          unfold windCoord at hb'
          rw [if_neg (by omega)] at hb'
          have e : ps.get "PPBB" = .ok q := by unfold SndParts.get; rw [hq]
          rw [e, ok_bind, if_neg (fun e => hno (Or.inl e))] at hb'
          obtain ⟨hs, hh, hb'⟩ := run_inv hb'
          split at hb'
          · rename_i e
            obtain ⟨z, g1, g2⟩ := List.any_eq_true.1 e
            exact absurd (Or.inr ⟨hs, hh, z, g1, by simpa using g2⟩) hno
          · rw [← Except.ok.inj hb']
      · rw [if_neg e]; exact Or.inl rfl
    have h5' : mergeRest c m ps { n with aSigW := ws.length } b.1 d'.1 b.2 d'.2 r.2 r.1 s1 = .ok s2 := by
      rw [← h5, hd, ed]
      unfold mergeRest
      simp only [gg _ (show "TTAA" ≠ "PPDD" by decide), or_true, if_true]
      rw [mergeZ_upper (d' := d.2) (y' := n.aSigW) hzero]
    unfold mergeSounding
    rw [hn', ok_bind, if_neg (by
      unfold Counts.total at htot ⊢
      dsimp only
      omega), hb', ok_bind, hd', ok_bind, h3', ok_bind, h4', ok_bind, h5', ok_bind]

end

/-- Mandatory levels up to 10 hPa, winds by pressure below and winds by height above. -/
def upperWinds : SndParts ℚ :=
  ⟨100, fun x =>
    if x = "TTAA" then some [("PRES", [1000, 500]), ("TEMP", [20, -10]), ("DWPT", [15, -20]), ("DRCT", [90, 200]), ("SPED", [5, 20]),
      ("HGHT", [100, 5500])]
    else if x = "TTCC" then some [("PRES", [70, 10]), ("TEMP", [-60, -40]), ("DWPT", [-70, -80]), ("DRCT", [240, 90]), ("SPED", [25, 30]),
      ("HGHT", [18000, 30000])]
    else if x = "PPBB" then some [("PRES", [1000, 700]), ("DRCT", [90, 190]), ("SPED", [5, 15])]
    else if x = "PPDD" then some [("HGHT", [25000]), ("DRCT", [100]), ("SPED", [40])]
    else none⟩

/-- C73: a wind at 25 km is lost, although there are levels at 18 km and 30 km. -/
theorem C73_lost : (mergeSounding ⟨fun x => x - 1, fun x => x + 1⟩ (-9999) 5 upperWinds).toOption.bind
    (fun o => o.map fun s => (s.pres, s.hght.contains 25000, s.sped.contains 40)) = some ([1000, 700, 500, 70, 10], false, false) := by
  decide +kernel

example : (∃ p, upperWinds.part "PPDD" = some p ∧ ByHeight p (-9999)) ∧ NoWindsByHeight upperWinds (-9999) ∧
    ∃ s, mergeSounding ⟨fun x => x - 1, fun x => x + 1⟩ (-9999) 5 (without upperWinds "PPDD") = .ok (some s) := by
  refine ⟨⟨_, rfl, ?_, ⟨_, rfl⟩, ⟨_, rfl⟩⟩, ?_, ?_⟩
  · rintro (h | ⟨hs, h, z, hz, _, h'⟩)
    · exact absurd h (by decide)
    · obtain rfl := Except.ok.inj h
      simp only [List.mem_singleton] at hz
      subst hz
      norm_num at h'
  · intro p hp
    obtain rfl := Option.some.inj hp
    exact Or.inl (Or.inl rfl)
  · have h : (mergeSounding ⟨fun x => x - 1, fun x => x + 1⟩ (-9999) 5 (without upperWinds "PPDD")).toOption.bind (fun o => o.map Snd.pres) =
        some [1000, 700, 500, 70, 10] := by decide +kernel
    revert h
    cases mergeSounding ⟨fun x => x - 1, fun x => x + 1⟩ (-9999) 5 (without upperWinds "PPDD") with
    | error e => intro h; cases h
    | ok o =>
      cases o with
      | none => intro h; cases h
      | some s => intro h; exact ⟨s, rfl⟩

end Gempak
