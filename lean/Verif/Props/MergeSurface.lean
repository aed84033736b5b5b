/- C127: the surface of an unmerged sounding is a level of the merged sounding. -/
import Verif.Props.MergeOnce
import Verif.Props.MergeFrom

namespace Gempak

set_option linter.unusedSectionVars false

open Spec

section
variable {α : Type} [Field α] [LinearOrder α]

/-! ## Specification -/

/-- Two numbers are equal up to the tolerance of `np.isclose`. -/
def Spec.NextTo (a b : α) : Prop := |a - b| ≤ 1 / 100000000 + 1 / 100000 * |b|

/-- Pressure of the first level of a part that gives pressure, temperature and height. -/
def Spec.FirstGiven (p : SndPart α) (m f : α) : Prop :=
  ∃ i, (∃ t z, p.at "PRES" i = .ok f ∧ p.at "TEMP" i = .ok t ∧ p.at "HGHT" i = .ok z ∧ f ≠ m ∧ t ≠ m ∧ z ≠ m) ∧
    ∀ j < i, ∀ x t z, p.at "PRES" j = .ok x → p.at "TEMP" j = .ok t → p.at "HGHT" j = .ok z → x = m ∨ t = m ∨ z = m

/-- The first mandatory level can be the surface: its pressure is given, at most 1060, and not below that of the first mandatory level with
temperature and height. -/
def Spec.SurfaceUsable (p : SndPart α) (m P : α) : Prop :=
  p.at "PRES" 0 = .ok P ∧ P ≠ m ∧ m ≤ P ∧ P ≤ 1060 ∧ ∀ f, Spec.FirstGiven p m f → f ≤ P

/-- It cannot. -/
def Spec.SurfaceUnusable (p : SndPart α) (m : α) : Prop :=
  ∃ x, p.at "PRES" 0 = .ok x ∧ (x = m ∨ 1060 < x ∨ ∃ f, Spec.FirstGiven p m f ∧ x < f)

/-- Pressure, temperature and dew point of the surface: those of the first mandatory level, replaced by those of the first significant temperature
if that has (nearly) the same pressure or the mandatory level cannot be used. -/
inductive Spec.SurfaceTemp (ps : SndParts α) (m : α) : α → α → α → Prop
  | man {p P T D} : ps.part "TTAA" = some p → Spec.SurfaceUsable p m P → p.at "TEMP" 0 = .ok T → p.at "DWPT" 0 = .ok D →
      (∀ b x t, ps.part "TTBB" = some b → b.at "PRES" 0 = .ok x → b.at "TEMP" 0 = .ok t → x = m ∨ t = m ∨ ¬ Spec.NextTo P x) →
      Spec.SurfaceTemp ps m P T D
  | sig {p b P0 P T D} : ps.part "TTAA" = some p → Spec.SurfaceUsable p m P0 → ps.part "TTBB" = some b → b.at "PRES" 0 = .ok P →
      b.at "TEMP" 0 = .ok T → b.at "DWPT" 0 = .ok D → P ≠ m → T ≠ m → Spec.NextTo P0 P → Spec.SurfaceTemp ps m P T D
  | only {b P T D} : (∀ p, ps.part "TTAA" = some p → Spec.SurfaceUnusable p m) → ps.part "TTBB" = some b → b.at "PRES" 0 = .ok P →
      b.at "TEMP" 0 = .ok T → b.at "DWPT" 0 = .ok D → P ≠ m → T ≠ m → Spec.SurfaceTemp ps m P T D

/-- Pressure of the first level of significant winds by pressure, which may be written as negative heights. -/
def Spec.SigWindAt (q : SndPart α) (m x : α) : Prop :=
  (q.any (fun y => y.1 = "PRES") = true ∧ q.at "PRES" 0 = .ok x) ∨
    (¬ q.any (fun y => y.1 = "PRES") = true ∧ Spec.OnPressure q m ∧ q.at "HGHT" 0 = .ok x)

/-- Pressure and wind of the surface, `P0` being the pressure from the temperatures: the first significant wind if that has (nearly) this pressure,
else that of the first mandatory level. -/
inductive Spec.SurfaceWind (ps : SndParts α) (m P0 : α) : α → α → α → Prop
  | man {p P R W} : ps.part "TTAA" = some p → Spec.SurfaceUsable p m P → p.at "DRCT" 0 = .ok R → p.at "SPED" 0 = .ok W →
      (∀ q x r, ps.part "PPBB" = some q → Spec.SigWindAt q m x → q.at "DRCT" 0 = .ok r → x = m ∨ r = m ∨ ¬ Spec.NextTo P0 |x|) →
      Spec.SurfaceWind ps m P0 P0 R W
  | sig {q x R W} : ps.part "PPBB" = some q → Spec.SigWindAt q m x → q.at "DRCT" 0 = .ok R → q.at "SPED" 0 = .ok W → x ≠ m → R ≠ m →
      Spec.NextTo P0 |x| → Spec.SurfaceWind ps m P0 |x| R W
  | none : (∀ p, ps.part "TTAA" = some p → Spec.SurfaceUnusable p m) →
      (∀ q x r, ps.part "PPBB" = some q → Spec.SigWindAt q m x → q.at "DRCT" 0 = .ok r → x = m ∨ r = m ∨ ¬ Spec.NextTo P0 |x|) →
      Spec.SurfaceWind ps m P0 P0 m m

/-- The surface is level `j` of the sounding: its pressure, temperature and dew point as given, the elevation of the station as height, its
wind. -/
structure Spec.SurfaceIn (ps : SndParts α) (m : α) (s : Snd α) (P T D R W : α) (j : Nat) : Prop where
  pres : s.pres[j]? = some P
  temp : T ≠ m → s.temp[j]? = some T
  dwpt : T ≠ m → D ≠ m → s.dwpt[j]? = some D
  hght : (∃ p x, ps.part "TTAA" = some p ∧ Spec.SurfaceUsable p m x) → T ≠ m → ps.selv ≠ m → Spec.NoTropAt ps P → s.hght[j]? = some ps.selv
  wind : Spec.NoWindsByHeight ps m → R ≠ m → W ≠ m → s.drct[j]? = some R ∧ s.sped[j]? = some W

/-! ## The first mandatory level with temperature and height -/

theorem at_col_iff {p : SndPart α} {k : String} {col : List α} (hc : p.col k = .ok col) (i : Nat) (x : α) : p.at k i = .ok x ↔ col[i]? = some x := by
  unfold SndPart.at
  rw [hc, ok_bind]
  unfold idx
  cases e : col[i]? with
  | none => simp
  | some y => simp

theorem firstManP_given {m f : α} {P T Z : List α} (h : firstManP m P T Z = .ok f) :
    (∃ i : Nat, (∃ t z, P[i]? = some f ∧ T[i]? = some t ∧ Z[i]? = some z ∧ f ≠ m ∧ t ≠ m ∧ z ≠ m) ∧
      ∀ j < i, ∀ x t z, P[j]? = some x → T[j]? = some t → Z[j]? = some z → x = m ∨ t = m ∨ z = m) ∨
    (f = m ∧ ∀ (j : Nat) x t z, P[j]? = some x → T[j]? = some t → Z[j]? = some z → x = m ∨ t = m ∨ z = m) := by
  induction P generalizing T Z with
  | nil =>
    cases T <;> cases Z <;> first | cases h | skip
    exact Or.inr ⟨rfl, fun j x t z hx => by simp at hx⟩
  | cons p P ih =>
    cases T with
    | nil => cases h
    | cons t T =>
      cases Z with
      | nil => cases h
      | cons z Z =>
        rw [firstManP] at h
        split at h
        · rename_i hc
          obtain rfl := Except.ok.inj h
          exact Or.inl ⟨0, ⟨t, z, rfl, rfl, rfl, hc.1, hc.2.1, hc.2.2⟩, fun j hj => by omega⟩
        · rename_i hc
          have h0 : p = m ∨ t = m ∨ z = m := by tauto
          have step : ∀ j x t' z', (p :: P)[j]? = some x → (t :: T)[j]? = some t' → (z :: Z)[j]? = some z' →
              (∀ k, j = k + 1 → P[k]? = some x → T[k]? = some t' → Z[k]? = some z' → x = m ∨ t' = m ∨ z' = m) → x = m ∨ t' = m ∨ z' = m := by
            intro j x t' z' h1 h2 h3 hk
            cases j with
            | zero => simp at h1 h2 h3; rw [← h1, ← h2, ← h3]; exact h0
            | succ k => simp at h1 h2 h3; exact hk k rfl h1 h2 h3
          rcases ih h with ⟨i, ⟨a, b, e1, e2, e3, e4⟩, hj⟩ | ⟨e, hj⟩
          · refine Or.inl ⟨i + 1, ⟨a, b, by simpa using e1, by simpa using e2, by simpa using e3, e4⟩, fun j hji x t' z' h1 h2 h3 => ?_⟩
            exact step j x t' z' h1 h2 h3 fun k ek => hj k (by omega) x t' z'
          · exact Or.inr ⟨e, fun j x t' z' h1 h2 h3 => step j x t' z' h1 h2 h3 fun k ek => hj k x t' z'⟩

theorem FirstGiven_unique {p : SndPart α} {m f g : α} (h1 : FirstGiven p m f) (h2 : FirstGiven p m g) : f = g := by
  obtain ⟨i, ⟨t, z, a1, a2, a3, a4, a5, a6⟩, ha⟩ := h1
  obtain ⟨j, ⟨t', z', b1, b2, b3, b4, b5, b6⟩, hb⟩ := h2
  rcases lt_trichotomy i j with e | e | e
  · rcases hb i e _ _ _ a1 a2 a3 with e | e | e <;> contradiction
  · subst e; exact Except.ok.inj (a1.symm.trans b1)
  · rcases ha j e _ _ _ b1 b2 b3 with e | e | e <;> contradiction

/-- The pressure compared with that of the surface. -/
theorem firstMan_given {p : SndPart α} {m f : α} {P T Z : List α} (hP : p.col "PRES" = .ok P) (hT : p.col "TEMP" = .ok T) (hZ : p.col "HGHT" = .ok Z)
    (h : firstManP m P T Z = .ok f) : FirstGiven p m f ∨ (f = m ∧ ∀ g, ¬ FirstGiven p m g) := by
  rcases firstManP_given h with ⟨i, ⟨t, z, e1, e2, e3, e4⟩, hj⟩ | ⟨e, hj⟩
  · refine Or.inl ⟨i, ⟨t, z, (at_col_iff hP _ _).2 e1, (at_col_iff hT _ _).2 e2, (at_col_iff hZ _ _).2 e3, e4⟩, fun j hji x t' z' h1 h2 h3 => ?_⟩
    exact hj j hji x t' z' ((at_col_iff hP _ _).1 h1) ((at_col_iff hT _ _).1 h2) ((at_col_iff hZ _ _).1 h3)
  · refine Or.inr ⟨e, fun g ⟨i, ⟨t, z, e1, e2, e3, e4, e5, e6⟩, _⟩ => ?_⟩
    rcases hj i _ _ _ ((at_col_iff hP _ _).1 e1) ((at_col_iff hT _ _).1 e2) ((at_col_iff hZ _ _).1 e3) with e | e | e <;> contradiction

/-! ## The surface level, step by step -/

/-- The surface check keeps the first mandatory level or clears it. -/
theorem surface_checked {ps : SndParts α} {m f : α} {n : Counts} {s0 s1 : Snd α} (hman : ps.count "TTAA" "PRES" = .ok n.man)
    (h0 : surfaceLevel ps m n = .ok s0)
    (hf : whenSome n.man m (fun _ => do
      let p ← ps.get "TTAA"
      firstManP m (← p.col "PRES") (← p.col "TEMP") (← p.col "HGHT")) = .ok f) (h1 : surfaceCheck m f s0 = .ok s1) :
    (∀ p P, ps.part "TTAA" = some p → SurfaceUsable p m P → ∃ T D R W, p.at "TEMP" 0 = .ok T ∧ p.at "DWPT" 0 = .ok D ∧ p.at "DRCT" 0 = .ok R ∧
      p.at "SPED" 0 = .ok W ∧ s1 = ⟨[P], [ps.selv], [T], [D], [R], [W]⟩) ∧
    ((∀ p, ps.part "TTAA" = some p → SurfaceUnusable p m) → s1 = ⟨[m], [m], [m], [m], [m], [m]⟩) := by
  unfold surfaceLevel at h0
  split at h0
  · rename_i hlt
    obtain rfl := Except.ok.inj h0
    refine ⟨fun p P hp hu => ?_, fun _ => ?_⟩
    · obtain ⟨col, hc, hl⟩ := count_part hman p hp
      have := at_lt hu.1 hc
      omega
    · unfold surfaceCheck at h1
      have e : idx [m] 0 = (.ok m : Run α) := rfl
      rw [e, ok_bind] at h1
      dsimp only at h1
      rw [if_pos (by left; split <;> rfl)] at h1
      exact (Except.ok.inj h1).symm
  · rename_i hge
    obtain ⟨p, hp, h0⟩ := run_inv h0
    obtain ⟨x, hx, h0⟩ := run_inv h0
    obtain ⟨_, _, h0⟩ := run_inv h0
    obtain ⟨t, ht, h0⟩ := run_inv h0
    obtain ⟨d, hd, h0⟩ := run_inv h0
    obtain ⟨r, hr, h0⟩ := run_inv h0
    obtain ⟨w, hw, h0⟩ := run_inv h0
    obtain rfl := Except.ok.inj h0
    have hp' := get_part hp
    have hfg : FirstGiven p m f ∨ (f = m ∧ ∀ g, ¬ FirstGiven p m g) := by
      rcases whenSome_inv hf with ⟨_, e⟩ | ⟨e, _⟩
      · obtain ⟨p', hq, e⟩ := run_inv e
        obtain rfl := Except.ok.inj (hp.symm.trans hq)
        obtain ⟨P, hP, e⟩ := run_inv e
        obtain ⟨T, hT, e⟩ := run_inv e
        obtain ⟨Z, hZ, e⟩ := run_inv e
        exact firstMan_given hP hT hZ e
      · omega
    unfold surfaceCheck at h1
    have e : idx [x] 0 = (.ok x : Run α) := rfl
    rw [e, ok_bind] at h1
    dsimp only at h1
    refine ⟨fun p2 P hp2 hu => ?_, fun hall => ?_⟩
    · obtain rfl := Option.some.inj (hp'.symm.trans hp2)
      obtain ⟨u1, u2, u3, u4, u5⟩ := hu
      obtain rfl := Except.ok.inj (hx.symm.trans u1)
      rw [if_neg (not_lt.2 u4)] at h1
      rw [if_neg] at h1
      · exact ⟨t, d, r, w, ht, hd, hr, hw, (Except.ok.inj h1).symm⟩
      · rintro (e | ⟨e, _⟩)
        · exact u2 e
        · rcases hfg with g | ⟨rfl, _⟩
          · exact absurd e (not_lt.2 (u5 f g))
          · exact absurd e (not_lt.2 u3)
    · obtain ⟨y, hy, hc⟩ := hall p hp'
      obtain rfl := Except.ok.inj (hx.symm.trans hy)
      have hcond : (if x > 1060 then m else x) = m ∨ ((if x > 1060 then m else x) < f ∧ (if x > 1060 then m else x) ≠ m) := by
        by_cases h6 : x > 1060
        · left; rw [if_pos h6]
        · rw [if_neg h6]
          rcases hc with e | e | ⟨g, hg, e⟩
          · exact Or.inl e
          · exact absurd e h6
          · by_cases exm : x = m
            · exact Or.inl exm
            · right
              rcases hfg with g' | ⟨_, g'⟩
              · rw [FirstGiven_unique g' hg]; exact ⟨e, exm⟩
              · exact absurd hg (g' g)
      rw [if_pos hcond] at h1
      exact (Except.ok.inj h1).symm

/-- Significant temperatures at the surface. -/
theorem surface_temp {ps : SndParts α} {m P T D : α} {n : Counts} {s1 s2 : Snd α} (hsig : ps.count "TTBB" "PRES" = .ok n.sigT)
    (c1 : ∀ p P, ps.part "TTAA" = some p → SurfaceUsable p m P → ∃ T D R W, p.at "TEMP" 0 = .ok T ∧ p.at "DWPT" 0 = .ok D ∧ p.at "DRCT" 0 = .ok R ∧
      p.at "SPED" 0 = .ok W ∧ s1 = ⟨[P], [ps.selv], [T], [D], [R], [W]⟩)
    (c2 : (∀ p, ps.part "TTAA" = some p → SurfaceUnusable p m) → s1 = ⟨[m], [m], [m], [m], [m], [m]⟩)
    (h2 : surfaceSigT ps m n s1 = .ok s2) (hT : SurfaceTemp ps m P T D) :
    s2.pres = [P] ∧ s2.temp = [T] ∧ s2.dwpt = [D] ∧ s2.hght = s1.hght ∧ s2.drct = s1.drct ∧ s2.sped = s1.sped := by
  have take : ∀ b F Tm Dm Z R W, ps.part "TTBB" = some b → b.at "PRES" 0 = .ok P → b.at "TEMP" 0 = .ok T → b.at "DWPT" 0 = .ok D → P ≠ m → T ≠ m →
      (F = m ∨ NextTo F P) → s1 = ⟨[F], Z, [Tm], [Dm], R, W⟩ →
      s2.pres = [P] ∧ s2.temp = [T] ∧ s2.dwpt = [D] ∧ s2.hght = s1.hght ∧ s2.drct = s1.drct ∧ s2.sped = s1.sped := by
    rintro b F Tm Dm Z R W hb e1 e2 e3 hP hT hF rfl
    obtain ⟨col, hc, hl⟩ := count_part hsig b hb
    have hn := at_lt e1 hc
    unfold surfaceSigT at h2
    rw [if_neg (by omega)] at h2
    obtain ⟨b', hb', h2⟩ := run_inv h2
    obtain rfl := Option.some.inj (hb.symm.trans (get_part hb'))
    rw [e1, ok_bind, if_neg hP, e2, ok_bind, if_neg hT] at h2
    obtain ⟨F', hF', h2⟩ := run_inv h2
    obtain rfl : F = F' := Except.ok.inj hF'
    rw [if_pos (show F = m ∨ isClose F P from hF)] at h2
    obtain ⟨pr, hpr, h2⟩ := run_inv h2
    obtain ⟨d, hd, h2⟩ := run_inv h2
    rw [e3] at hd
    obtain rfl := Except.ok.inj hd
    obtain ⟨dl, hdl, h2⟩ := run_inv h2
    obtain ⟨tl, htl, h2⟩ := run_inv h2
    obtain rfl := Except.ok.inj h2
    obtain ⟨_, rfl⟩ := put_val hpr
    obtain ⟨_, rfl⟩ := put_val hdl
    obtain ⟨_, rfl⟩ := put_val htl
    exact ⟨rfl, rfl, rfl, rfl, rfl, rfl⟩
  cases hT with
  | man hp hu eT eD hno =>
    obtain ⟨T', D', R, W, g1, g2, _, _, rfl⟩ := c1 _ _ hp hu
    obtain rfl := Except.ok.inj (eT.symm.trans g1)
    obtain rfl := Except.ok.inj (eD.symm.trans g2)
    have keep : s2 = ⟨[P], [ps.selv], [T], [D], [R], [W]⟩ := by
      unfold surfaceSigT at h2
      split at h2
      · exact (Except.ok.inj h2).symm
      · obtain ⟨b, hb, h2⟩ := run_inv h2
        obtain ⟨x, hx, h2⟩ := run_inv h2
        split at h2
        · exact (Except.ok.inj h2).symm
        · rename_i hxm
          obtain ⟨t, ht, h2⟩ := run_inv h2
          split at h2
          · exact (Except.ok.inj h2).symm
          · rename_i htm
            obtain ⟨F, hF, h2⟩ := run_inv h2
            obtain rfl : P = F := Except.ok.inj hF
            rcases hno b x t (get_part hb) hx ht with e | e | e
            · exact absurd e hxm
            · exact absurd e htm
            · rw [if_neg (by rintro (e' | e'); exacts [hu.2.1 e', e e'])] at h2
              exact (Except.ok.inj h2).symm
    subst keep
    exact ⟨rfl, rfl, rfl, rfl, rfl, rfl⟩
  | sig hp hu hb e1 e2 e3 hP hTm hn =>
    obtain ⟨T', D', R, W, _, _, _, _, e⟩ := c1 _ _ hp hu
    exact take _ _ _ _ _ _ _ hb e1 e2 e3 hP hTm (Or.inr hn) e
  | only hu hb e1 e2 e3 hP hTm => exact take _ _ _ _ _ _ _ hb e1 e2 e3 hP hTm (Or.inl rfl) (c2 hu)

theorem SurfaceTemp_given {ps : SndParts α} {m P T D : α} (h : SurfaceTemp ps m P T D) : P ≠ m := by
  cases h with
  | man _ hu => exact hu.2.1
  | sig _ _ _ _ _ _ hP => exact hP
  | only _ _ _ _ _ hP => exact hP

/-- The part of significant winds and its pressures. -/
theorem windCoord_at {ps : SndParts α} {m : α} {n : Nat} {b : Bool × Option (SndPart α)} (h : windCoord ps m "PPBB" n = .ok b) :
    n = 0 ∨ ∃ p, ps.part "PPBB" = some p ∧
      ((b.1 = false ∧ ∃ q, b.2 = some q ∧ (∀ x, q.at "PRES" 0 = .ok x ↔ SigWindAt p m x) ∧ (∀ k, k ≠ "PRES" → q.at k 0 = p.at k 0)) ∨
        (b.1 = true ∧ ¬ OnPressure p m)) := by
  unfold windCoord at h
  split at h
  · rename_i e; exact Or.inl e
  · right
    obtain ⟨p, hp, h⟩ := run_inv h
    refine ⟨p, get_part hp, ?_⟩
    split at h
    · rename_i e
      obtain rfl := Except.ok.inj h
      refine Or.inl ⟨rfl, p, rfl, fun x => ⟨fun hx => Or.inl ⟨e, hx⟩, ?_⟩, fun _ _ => rfl⟩
      rintro (⟨_, hx⟩ | ⟨hn, _⟩)
      · exact hx
      · exact absurd e hn
    · rename_i hno
      obtain ⟨hs, hh, h⟩ := run_inv h
      split at h
      · rename_i e
        obtain rfl := Except.ok.inj h
        have hon : OnPressure p m := by
          obtain ⟨z, hz, e⟩ := List.any_eq_true.1 e
          exact Or.inr ⟨hs, hh, z, hz, by simpa using e⟩
        have hnone : p.find? (fun x => x.1 = "PRES") = none := by
          rw [List.find?_eq_none]
          intro y hy e
          exact hno (List.any_eq_true.2 ⟨y, hy, e⟩)
        refine Or.inl ⟨rfl, _, rfl, fun x => ?_, fun k hk => ?_⟩
        · have e1 : (p ++ [("PRES", hs)] : SndPart α).at "PRES" 0 = p.at "HGHT" 0 := by
            unfold SndPart.at
            rw [hh]
            unfold SndPart.col
            rw [List.find?_append, hnone, Option.none_or, List.find?_cons_of_pos (by simp)]
          rw [e1]
          refine ⟨fun hx => Or.inr ⟨hno, hon, hx⟩, ?_⟩
          rintro (⟨e, _⟩ | ⟨_, _, hx⟩)
          · exact absurd e hno
          · exact hx
        · unfold SndPart.at SndPart.col
          have : [("PRES", hs)].find? (fun x : String × List α => x.1 = k) = none := by
            rw [List.find?_eq_none]
            intro y hy
            obtain rfl := List.mem_singleton.1 hy
            simpa using fun e => hk e.symm
          rw [List.find?_append, this, Option.or_none]
      · rename_i e
        obtain rfl := Except.ok.inj h
        refine Or.inr ⟨rfl, ?_⟩
        rintro (h1 | ⟨hs', h1, z, hz, h2, h3⟩)
        · exact hno h1
        · obtain rfl := Except.ok.inj (hh.symm.trans h1)
          exact e (List.any_eq_true.2 ⟨z, hz, by simp [h2, h3]⟩)

theorem SigWindAt_on {q : SndPart α} {m x : α} (h : SigWindAt q m x) : OnPressure q m := by
  rcases h with ⟨e, _⟩ | ⟨_, e, _⟩
  · exact Or.inl e
  · exact e

/-- Significant winds at the surface. -/
theorem surface_wind {ps : SndParts α} {m P0 P R W : α} {n : Counts} {b : Bool × Option (SndPart α)} {s1 s2 s3 : Snd α}
    (hsig : ps.count "PPBB" "SPED" = .ok n.sigW) (hb : windCoord ps m "PPBB" n.sigW = .ok b)
    (c1 : ∀ p P, ps.part "TTAA" = some p → SurfaceUsable p m P → ∃ T D R W, p.at "TEMP" 0 = .ok T ∧ p.at "DWPT" 0 = .ok D ∧ p.at "DRCT" 0 = .ok R ∧
      p.at "SPED" 0 = .ok W ∧ s1 = ⟨[P], [ps.selv], [T], [D], [R], [W]⟩)
    (c2 : (∀ p, ps.part "TTAA" = some p → SurfaceUnusable p m) → s1 = ⟨[m], [m], [m], [m], [m], [m]⟩)
    (k2 : s2.Size 1) (e0 : s2.pres = [P0]) (hP0 : P0 ≠ m) (e1 : s2.drct = s1.drct) (e2 : s2.sped = s1.sped) (h3 : surfaceSigW b.2 b.1 m n s2 = .ok s3)
    (hW : SurfaceWind ps m P0 P R W) :
    s3.pres = [P] ∧ s3.temp = s2.temp ∧ s3.dwpt = s2.dwpt ∧ s3.hght = s2.hght ∧
      (NoWindsByHeight ps m → s3.drct = [R] ∧ s3.sped = [W]) := by
  have still : P = P0 → (∀ q x r, ps.part "PPBB" = some q → SigWindAt q m x → q.at "DRCT" 0 = .ok r → x = m ∨ r = m ∨ ¬ NextTo P0 |x|) →
      s1.drct = [R] → s1.sped = [W] → s3.pres = [P] ∧ s3.temp = s2.temp ∧ s3.dwpt = s2.dwpt ∧ s3.hght = s2.hght ∧
      (NoWindsByHeight ps m → s3.drct = [R] ∧ s3.sped = [W]) := by
    rintro rfl hno er ew
    have same : s3 = s2 → s3.pres = [P] ∧ s3.temp = s2.temp ∧ s3.dwpt = s2.dwpt ∧ s3.hght = s2.hght ∧
        (NoWindsByHeight ps m → s3.drct = [R] ∧ s3.sped = [W]) := by
      rintro rfl
      exact ⟨e0, rfl, rfl, rfl, fun _ => ⟨e1.trans er, e2.trans ew⟩⟩
    rcases windCoord_at hb with e | ⟨p, hp, ⟨e, q, hq, hx, hk⟩ | ⟨e, hn⟩⟩
    · unfold surfaceSigW at h3
      rw [if_pos (by omega)] at h3
      exact same (Except.ok.inj h3).symm
    · unfold surfaceSigW at h3
      rw [e, hq] at h3
      split at h3
      · exact same (Except.ok.inj h3).symm
      · change (do
            let p ← q.at "PRES" 0
            if p ≠ m then _ else _) = _ at h3
        obtain ⟨x, ex, h3⟩ := run_inv h3
        split at h3
        · rename_i hxm
          obtain ⟨r, er', h3⟩ := run_inv h3
          split at h3
          · rename_i hrm
            obtain ⟨f, ef, h3⟩ := run_inv h3
            obtain rfl : P = f := by rw [e0] at ef; exact Except.ok.inj ef
            rw [hk "DRCT" (by decide)] at er'
            rcases hno p x r hp ((hx x).1 ex) er' with e | e | e
            · exact absurd e hxm
            · exact absurd e hrm
            · rw [if_neg (by rintro (e' | e'); exacts [hP0 e', e e'])] at h3
              exact same (Except.ok.inj h3).symm
          · exact same (Except.ok.inj h3).symm
        · exact same (Except.ok.inj h3).symm
    · -- winds by height
      unfold surfaceSigW at h3
      split at h3
      · exact same (Except.ok.inj h3).symm
      · have hnz : NoWindsByHeight ps m → False := by
          intro hz
          rcases hz p hp with e' | e'
          · exact hn e'
          · obtain ⟨col, hc, hl⟩ := count_part hsig p hp
            obtain rfl := Except.ok.inj (e'.symm.trans hc)
            simp at hl; omega
        split at h3
        · cases h3
        · obtain ⟨z, _, h3⟩ := run_inv h3
          split at h3
          · obtain ⟨r, _, h3⟩ := run_inv h3
            split at h3
            · obtain ⟨dr, _, h3⟩ := run_inv h3
              obtain ⟨w, _, h3⟩ := run_inv h3
              obtain ⟨sp, _, h3⟩ := run_inv h3
              obtain rfl := Except.ok.inj h3
              exact ⟨e0, rfl, rfl, rfl, fun hz => (hnz hz).elim⟩
            · exact same (Except.ok.inj h3).symm
          · exact same (Except.ok.inj h3).symm
  cases hW with
  | man hp hu eR eW hno =>
    obtain ⟨T', D', R', W', _, _, g1, g2, e⟩ := c1 _ _ hp hu
    obtain rfl := Except.ok.inj (eR.symm.trans g1)
    obtain rfl := Except.ok.inj (eW.symm.trans g2)
    exact still rfl hno (by rw [e]) (by rw [e])
  | none hu hno => exact still rfl hno (by rw [c2 hu]) (by rw [c2 hu])
  | sig hq hx eR eW hxm hRm hn =>
    rename_i p x
    obtain ⟨col, hc, hl⟩ := count_part hsig p hq
    have hlt := at_lt eW hc
    rcases windCoord_at hb with e | ⟨p', hp', ⟨e, q, hq', hx', hk⟩ | ⟨e, hn'⟩⟩
    · omega
    · obtain rfl := Option.some.inj (hq.symm.trans hp')
      unfold surfaceSigW at h3
      rw [e, hq', if_neg (by omega)] at h3
      change (do
            let p ← q.at "PRES" 0
            if p ≠ m then _ else _) = _ at h3
      rw [(hx' x).2 hx, ok_bind, if_pos hxm, hk "DRCT" (by decide), eR, ok_bind, if_pos hRm] at h3
      obtain ⟨f, ef, h3⟩ := run_inv h3
      obtain rfl : P0 = f := by rw [e0] at ef; exact Except.ok.inj ef
      rw [if_pos (show P0 = m ∨ isClose P0 |x| from Or.inr hn)] at h3
      obtain ⟨pr, hpr, h3⟩ := run_inv h3
      obtain ⟨dr, hdr, h3⟩ := run_inv h3
      rw [hk "SPED" (by decide), eW, ok_bind] at h3
      obtain ⟨sp, hsp, h3⟩ := run_inv h3
      obtain rfl := Except.ok.inj h3
      obtain ⟨_, rfl⟩ := put_val hpr
      obtain ⟨l1, rfl⟩ := put_val hdr
      obtain ⟨l2, rfl⟩ := put_val hsp
      have one : ∀ (l : List α) (v : α), l.length = 1 → l.set 0 v = [v] := by
        intro l v hl
        match l, hl with
        | [_], _ => rfl
      have hlen : s2.drct.length = 1 ∧ s2.sped.length = 1 := by
        exact ⟨k2.drct, k2.sped⟩
      exact ⟨by show s2.pres.set 0 |x| = _; rw [e0]; rfl, rfl, rfl, rfl, fun _ => ⟨one _ _ hlen.1, one _ _ hlen.2⟩⟩
    · obtain rfl := Option.some.inj (hq.symm.trans hp')
      exact absurd (SigWindAt_on hx) hn'

/-- The row of the surface after the mandatory levels. -/
theorem surface_row {ps : SndParts α} {m P0 P T D R W : α} {n : Counts} {b : Bool × Option (SndPart α)} {r : Snd α × Nat} {hOK : α → Prop} {wOK : Prop}
    (hn : ps.counts = .ok n) (hb : windCoord ps m "PPBB" n.sigW = .ok b)
    (hA : ∀ p, ps.part "TTAA" = some p → SixNames p) (hC : ∀ p, ps.part "TTCC" = some p → SixNames p)
    (h : mergeMandatory ps m n b.1 b.2 = .ok r) (hT : SurfaceTemp ps m P0 T D) (hW : SurfaceWind ps m P0 P R W) :
    ∃ s j Z R' W', RowAt s j P Z T D R' W' ∧ ((∃ p x, ps.part "TTAA" = some p ∧ SurfaceUsable p m x) → Z = ps.selv) ∧
      (NoWindsByHeight ps m → R' = R ∧ W' = W) ∧ KeepsRows m hOK wOK s r.1 := by
  have hcnt : ps.count "TTAA" "PRES" = .ok n.man ∧ ps.count "TTBB" "PRES" = .ok n.sigT ∧ ps.count "PPBB" "SPED" = .ok n.sigW := by
    unfold SndParts.counts at hn
    obtain ⟨_, e1, hn⟩ := run_inv hn
    obtain ⟨_, _, hn⟩ := run_inv hn
    obtain ⟨_, _, hn⟩ := run_inv hn
    obtain ⟨_, _, hn⟩ := run_inv hn
    obtain ⟨_, e2, hn⟩ := run_inv hn
    obtain ⟨_, e3, hn⟩ := run_inv hn
    obtain ⟨_, _, hn⟩ := run_inv hn
    obtain ⟨_, _, hn⟩ := run_inv hn
    obtain ⟨_, _, hn⟩ := run_inv hn
    obtain ⟨_, _, hn⟩ := run_inv hn
    obtain ⟨_, _, hn⟩ := run_inv hn
    obtain ⟨_, _, hn⟩ := run_inv hn
    obtain rfl := Except.ok.inj hn
    exact ⟨e1, e2, e3⟩
  unfold mergeMandatory at h
  obtain ⟨s0, h0, h⟩ := run_inv h
  obtain ⟨f, hf, h⟩ := run_inv h
  obtain ⟨s1, h1, h⟩ := run_inv h
  obtain ⟨s2, h2, h⟩ := run_inv h
  obtain ⟨s3, h3, h⟩ := run_inv h
  obtain ⟨p0, hp0, h⟩ := run_inv h
  dsimp only at h
  obtain ⟨r4, h4, h⟩ := run_inv h
  obtain ⟨r5, h5, h⟩ := run_inv h
  obtain ⟨s6, h6, h⟩ := run_inv h
  obtain ⟨s7, h7, h⟩ := run_inv h
  obtain rfl := Except.ok.inj h
  obtain ⟨c1, c2⟩ := surface_checked hcnt.1 h0 hf h1
  have k2 := surfaceSigT_same (surfaceCheck_same (surfaceLevel_same h0) h1) h2
  have k3s := surfaceSigW_same k2 h3
  have k3 : Same s3 := ⟨1, k3s⟩
  obtain ⟨t1, t2, t3, t4, t5, t6⟩ := surface_temp hcnt.2.1 c1 c2 h2 hT
  obtain ⟨w1, w2, w3, w4, w5⟩ := surface_wind hcnt.2.2 hb c1 c2 k2 t1 (SurfaceTemp_given hT) t5 t6 h3 hW
  have one : ∀ l : List α, l.length = 1 → ∃ v, l = [v] := fun l hl => List.length_eq_one_iff.1 hl
  obtain ⟨Z, eZ⟩ := one _ k3s.hght
  obtain ⟨R', eR⟩ := one _ k3s.drct
  obtain ⟨W', eW⟩ := one _ k3s.sped
  have row3 : RowAt s3 0 P Z T D R' W' :=
    ⟨by rw [w1]; rfl, by rw [eZ]; rfl, by rw [w2, t2]; rfl, by rw [w3, t3]; rfl, by rw [eR]; rfl, by rw [eW]; rfl⟩
  have row4 : RowAt r4.1 0 P Z T D R' W' ∧ Same r4.1 := by
    rcases whenSome_inv h4 with ⟨_, e⟩ | ⟨_, e⟩
    · obtain ⟨p, hp, e⟩ := run_inv e
      exact ⟨(mergeMan_rows (hA p (get_part hp)) k3 e).1 _ _ _ _ _ _ _ row3, mergeMan_same (hA p (get_part hp)) k3 e⟩
    · rw [e]; exact ⟨row3, k3⟩
  have row5 : RowAt r5.1 0 P Z T D R' W' := by
    rcases whenSome_inv h5 with ⟨_, e⟩ | ⟨_, e⟩
    · obtain ⟨p, hp, e⟩ := run_inv e
      exact (mergeMan_rows (hC p (get_part hp)) row4.2 e).1 _ _ _ _ _ _ _ row4.1
    · rw [e]; exact row4.1
  refine ⟨r5.1, 0, Z, R', W', row5, ?_, fun hz => ?_,
    (keeps_manWinds (name := "PPAA") (nw := n.manWind) (nm := n.man) h6).trans (keeps_manWinds (name := "PPCC") (nw := n.aManWind) (nm := n.man) h7)⟩
  · rintro ⟨p, x, hp, hu⟩
    obtain ⟨_, _, _, _, _, _, _, _, e⟩ := c1 p x hp hu
    rw [w4, t4, e] at eZ
    exact (List.cons.inj eZ).1.symm
  · obtain ⟨a, c⟩ := w5 hz
    rw [a] at eR
    rw [c] at eW
    exact ⟨(List.cons.inj eR).1.symm, (List.cons.inj eW).1.symm⟩

/-- C127: the surface of an unmerged sounding is a level of the merged sounding.  Pressure, temperature and dew point are those of the first mandatory
level, or of the first significant temperature when that has nearly the same pressure or the mandatory one cannot be used; the height is the elevation
of the station, the wind that of the first significant wind at nearly the same pressure, or else of the mandatory level.
Missing: the height when a tropopause is reported at the surface pressure, see `C127_height_lost`; the wind when the lower part has winds by
height, which is in `C127_ground`; parts with other columns. -/
theorem C127_surface_partial [FloorRing α] (c : Calc α) (m : α) (fuel : Nat) (ps : SndParts α) (s : Snd α)
    (hA : ∀ p, ps.part "TTAA" = some p → SixNames p) (hC : ∀ p, ps.part "TTCC" = some p → SixNames p)
    (h : mergeSounding c m fuel ps = .ok (some s)) (P0 P T D R W : α) (hT : SurfaceTemp ps m P0 T D) (hW : SurfaceWind ps m P0 P R W) (hP : P ≠ m) :
    ∃ j, SurfaceIn ps m s P T D R W j := by
  obtain ⟨n, b, d, r, s1, s2, s3, s4, s5, s6, st⟩ := merge_stages h
  obtain ⟨s0, j, Z, R', W', row, hZ, hw, k0⟩ := surface_row (hOK := NoTropAt ps) (wOK := NoWindsByHeight ps m) st.counts st.lower hA hC st.man hT hW
  obtain ⟨j', kj⟩ := merge_keeps_kept hA hC h (fun n' b' r' hn hb hr => by
    obtain rfl := Except.ok.inj (st.counts.symm.trans hn)
    obtain rfl := Except.ok.inj (st.lower.symm.trans hb)
    obtain rfl := Except.ok.inj (st.man.symm.trans hr)
    exact k0) j
  have g1 := getD_some m row.pres
  have g2 := getD_some m row.hght
  have g3 := getD_some m row.temp
  have g4 := getD_some m row.dwpt
  have g5 := getD_some m row.drct
  have g6 := getD_some m row.sped
  have q := kj.pres
  have q1 := kj.temp
  have q2 := kj.dwpt
  have q3 := kj.wind
  have q4 := kj.hght
  rw [g1] at q
  rw [g3] at q1
  rw [g3, g4] at q2
  rw [g5, g6] at q3
  rw [g1, g2, g3] at q4
  refine ⟨j', some_getD (q hP) hP, fun t => some_getD (q1 t) t, fun t e => some_getD (q2 t e) e, fun hu t z ho => ?_, fun w e1 e2 => ?_⟩
  · have eZ := hZ hu
    subst eZ
    exact some_getD (q4 ho hP t z) z
  · obtain ⟨rfl, rfl⟩ := hw w
    exact ⟨some_getD (q3 w e1 e2).1 e1, some_getD (q3 w e1 e2).2 e2⟩

/-- C127: when no pressure of the report is greater, winds are given by pressure and no mandatory level is below the ground, the surface is the
first level of the merged sounding. -/
theorem C127_first_partial [FloorRing α] [IsStrictOrderedRing α] (c : Calc α) (fuel : Nat) (ps : SndParts α) (s : Snd α) (hr : GoodReport ps (-9999))
    (hz : NoWindsByHeight ps (-9999)) (hwz : ∀ z, ¬ WindHeight ps z) (h : mergeSounding c (-9999) fuel ps = .ok (some s))
    (hg : ∀ p, ps.part "TTAA" = some p → ∀ j x y, 1 ≤ j → p.at "PRES" j = .ok x → SurfaceAt ps (-9999) y → y ≠ -9999 → x ≤ y)
    (P0 P T D R W : α) (hT : SurfaceTemp ps (-9999) P0 T D) (hW : SurfaceWind ps (-9999) P0 P R W) (hP : P ≠ -9999)
    (hmax : ∀ x, PressureIn ps x → x ≤ P) : SurfaceIn ps (-9999) s P T D R W 0 := by
  obtain ⟨j, hj⟩ := C127_surface_partial c (-9999) fuel ps s hr.man hr.upper h P0 P T D R W hT hW hP
  obtain ⟨g1, g2⟩ := C117_falls_partial c (-9999) fuel ps s hr hz h hg
  obtain ⟨hjl, ej⟩ := List.getElem?_eq_some_iff.1 hj.pres
  by_cases e : j = 0
  · subst e; exact hj
  · have hlt := List.pairwise_iff_getElem.1 g2 0 j (by omega) hjl (by omega)
    have hf := (C108_from_report c fuel ps s hr.man hr.upper h 0).pres
    rw [List.getD_eq_getElem _ _ (by omega : 0 < s.pres.length)] at hf
    rcases hf (g1 _ (List.getElem_mem _)) with e' | e'
    · have := hmax _ e'
      rw [ej] at hlt
      exact absurd hlt (not_lt.2 this)
    · exact absurd e' (hwz _)

end

/-! ## What is lost, and a case -/

/-- Surface and a mandatory level, with a tropopause at the pressure of the surface. -/
def tropAtGround : SndParts ℚ :=
  ⟨100, fun x =>
    if x = "TTAA" then some [("PRES", [1000, 850]), ("TEMP", [20, 10]), ("DWPT", [15, 5]), ("DRCT", [90, 180]), ("SPED", [5, 10]), ("HGHT", [100, 1500])]
    else if x = "TRPA" then some [("PRES", [1000]), ("TEMP", [20]), ("DWPT", [15]), ("DRCT", [90]), ("SPED", [5])]
    else none⟩

/-- C127: the elevation is lost when a tropopause is reported at the surface pressure: the height of the first level is missing. -/
theorem C127_height_lost : (mergeSounding ⟨fun x => x - 1, fun x => x + 1⟩ (-9999) 5 tropAtGround).toOption.bind
    (fun o => o.map fun s => (s.pres, s.hght)) = some ([1000, 850], [-9999, 1500]) := by
  decide +kernel

/-- Surface and two mandatory levels; the significant temperatures and winds give other values for the surface. -/
def groundSample : SndParts ℚ :=
  ⟨100, fun x =>
    if x = "TTAA" then some [("PRES", [1000, 850, 500]), ("TEMP", [20, 10, -10]), ("DWPT", [15, 5, -20]), ("DRCT", [90, 180, 200]), ("SPED", [5, 10, 20]),
      ("HGHT", [-9999, 1500, 5500])]
    else if x = "TTBB" then some [("PRES", [1000, 900]), ("TEMP", [21, 12]), ("DWPT", [16, 6])]
    else if x = "PPBB" then some [("PRES", [1000, 700]), ("DRCT", [95, 190]), ("SPED", [6, 15])]
    else none⟩

theorem groundSample_usable : ∃ p, groundSample.part "TTAA" = some p ∧ SurfaceUsable p (-9999) 1000 := by
  refine ⟨_, rfl, rfl, by norm_num, by norm_num, by norm_num, ?_⟩
  rintro f ⟨i, ⟨t, z, h, _⟩, _⟩
  match i, h with
  | 0, h => exact (Except.ok.inj h).symm.le
  | 1, h => rw [← Except.ok.inj h]; norm_num
  | 2, h => rw [← Except.ok.inj h]; norm_num
  | _ + 3, h => cases h

theorem groundSample_temp : SurfaceTemp groundSample (-9999) 1000 21 16 := by
  obtain ⟨p, hp, hu⟩ := groundSample_usable
  exact .sig hp hu rfl rfl rfl rfl (by norm_num) (by norm_num) (by unfold NextTo; norm_num)

theorem groundSample_wind : SurfaceWind groundSample (-9999) 1000 1000 95 6 := by
  have h : SurfaceWind groundSample (-9999) 1000 |1000| 95 6 :=
    .sig (q := [("PRES", [1000, 700]), ("DRCT", [95, 190]), ("SPED", [6, 15])]) rfl (Or.inl ⟨rfl, rfl⟩) rfl rfl (by norm_num) (by norm_num)
      (by unfold NextTo; norm_num)
  rwa [abs_of_pos (by norm_num)] at h

theorem groundSample_at {name k : String} {p : SndPart ℚ} {i : Nat} {x : ℚ} (hp : groundSample.part name = some p) (h : p.at k i = .ok x)
    (hk : k = "PRES") : 0 ≤ x ∧ x ≤ 1000 ∧ (1 ≤ i → x ≤ 900) := by
  subst hk
  unfold groundSample at hp
  dsimp only at hp
  split at hp
  · obtain rfl := Option.some.inj hp
    match i, h with
    | 0, h => rw [← Except.ok.inj h]; norm_num
    | 1, h => rw [← Except.ok.inj h]; norm_num
    | 2, h => rw [← Except.ok.inj h]; norm_num
    | _ + 3, h => cases h
  · split at hp
    · obtain rfl := Option.some.inj hp
      match i, h with
      | 0, h => rw [← Except.ok.inj h]; norm_num
      | 1, h => rw [← Except.ok.inj h]; norm_num
      | _ + 2, h => cases h
    · split at hp
      · obtain rfl := Option.some.inj hp
        match i, h with
        | 0, h => rw [← Except.ok.inj h]; norm_num
        | 1, h => rw [← Except.ok.inj h]; norm_num
        | _ + 2, h => cases h
      · cases hp

theorem groundSample_heights {p : SndPart ℚ} {name : String} {i : Nat} {x : ℚ} (hn : name ∈ ["PPBB", "PPDD"]) (hp : groundSample.part name = some p)
    (h : p.at "HGHT" i = .ok x) : False := by
  rcases List.mem_cons.1 hn with rfl | hn
  · obtain rfl := Option.some.inj hp; cases h
  · obtain rfl := List.mem_singleton.1 hn; cases hp

/-- The surface of the sample is its first level, with the temperature, dew point and wind of the significant levels. -/
example : ∃ s, mergeSounding ⟨fun x => x - 1, fun x => x + 1⟩ (-9999) 5 groundSample = .ok (some s) ∧ s.pres = [1000, 900, 850, 700, 500] ∧
    SurfaceIn groundSample (-9999) s 1000 21 16 95 6 0 := by
  obtain ⟨s, e, h1⟩ : ∃ s, mergeSounding ⟨fun x => x - 1, fun x => x + 1⟩ (-9999) 5 groundSample = .ok (some s) ∧ s.pres = [1000, 900, 850, 700, 500] := by
    have h : (mergeSounding ⟨fun x => x - 1, fun x => x + 1⟩ (-9999) 5 groundSample).toOption.bind (fun o => o.map Snd.pres) =
      some [1000, 900, 850, 700, 500] := by decide +kernel
    match e : mergeSounding ⟨fun x => x - 1, fun x => x + 1⟩ (-9999) 5 groundSample with
    | .error _ => rw [e] at h; cases h
    | .ok none => rw [e] at h; cases h
    | .ok (some s) => rw [e] at h; exact ⟨s, rfl, Option.some.inj h⟩
  have ha : ∀ y, SurfaceAt groundSample (-9999) y → y = 1000 := by
    intro y hy
    cases hy with
    | man hp h => obtain rfl := Option.some.inj hp; exact (Except.ok.inj h).symm
    | sigT hp h => obtain rfl := Option.some.inj hp; exact (Except.ok.inj h).symm
    | sigW hp h => obtain rfl := Option.some.inj hp; rw [← Except.ok.inj h]; norm_num
    | sigZ hp _ h => obtain rfl := Option.some.inj hp; cases h
  refine ⟨s, e, h1, C127_first_partial _ _ _ s ⟨?_, ?_, ?_, ?_⟩ ?_ ?_ e ?_ 1000 1000 21 16 95 6 groundSample_temp groundSample_wind (by norm_num) ?_⟩
  · exact fun x => lt_of_lt_of_le (by norm_num) (abs_nonneg x)
  · intro p hp
    obtain rfl := Option.some.inj hp
    unfold SixNames
    decide
  · intro p hp; cases hp
  · refine Spec.SurfaceGiven.man (ps := groundSample) (m := (-9999 : ℚ)) (x := 1000) rfl rfl (by norm_num) (by norm_num) (by norm_num) ?_
    intro i y t z hy _ _ _ _ _
    exact (groundSample_at (name := "TTAA") rfl hy rfl).2.1
  · intro p hp
    obtain rfl := Option.some.inj hp
    exact Or.inl (Or.inl rfl)
  · rintro z ⟨name, hn, p, i, hp, h⟩
    exact groundSample_heights hn hp h
  · intro p hp j x y hj hx hy _
    rw [ha y hy]
    exact (groundSample_at hp hx rfl).2.1
  · rintro x (⟨name, _, p, i, y, hp, h, e⟩ | ⟨name, hn, p, i, y, hp, h, _⟩)
    · obtain ⟨h0, h1, _⟩ := groundSample_at hp h rfl
      rcases e with rfl | rfl
      · exact h1
      · rwa [abs_of_nonneg h0]
    · exact (groundSample_heights hn hp h).elim

end Gempak
