import Mathlib.Analysis.SpecialFunctions.Log.Basic
import Mathlib.Analysis.Convex.SpecificFunctions.Basic
import Mathlib.Data.Real.Archimedean
import Mathlib.Tactic.Linarith
import Mathlib.Tactic.Ring
import Mathlib.Tactic.FieldSimp
import Mathlib.Tactic.Positivity
import Verif.Model.Calc
import Verif.Proof.DMRead

/-!
# C45-C48: interpolation between two levels and thermodynamic formulas, over the real numbers
-/

namespace Gempak

/-- The formulas over the reals. -/
noncomputable def realCalc : Calc ℝ := ⟨Real.log, Real.exp⟩

/-! ## Dictionaries -/

section
variable {α : Type} [Field α] [LinearOrder α]

theorem getKey_setKey_self (d : LevelData α) (k : String) (v : α) : getKey (setKey d k v) k = .ok v := by
  unfold setKey
  split
  · rename_i h
    unfold getKey
    have : (d.map (fun x => if x.1 = k then (k, v) else x)).find? (fun x => x.1 = k) = some (k, v) := by
      rw [List.any_eq_true] at h
      obtain ⟨x, hx, hk⟩ := h
      induction d with
      | nil => simp at hx
      | cons y d ih =>
        rw [List.map_cons]
        by_cases hy : y.1 = k
        · rw [if_pos hy, List.find?_cons_of_pos (by simp)]
        · rw [if_neg hy, List.find?_cons_of_neg (by simpa using hy)]
          rcases List.mem_cons.mp hx with rfl | hx
          · exact absurd (by simpa using hk) hy
          · exact ih hx
    rw [this]
  · rename_i h
    unfold getKey
    rw [List.find?_append]
    have hn : d.find? (fun x => x.1 = k) = none := by
      rw [List.find?_eq_none]
      intro x hx hk
      exact h (List.any_eq_true.mpr ⟨x, hx, hk⟩)
    rw [hn]
    simp

theorem getKey_setKey_ne (d : LevelData α) (k k' : String) (v : α) (h : k' ≠ k) : getKey (setKey d k v) k' = getKey d k' := by
  unfold setKey
  split
  · unfold getKey
    have : (d.map (fun x => if x.1 = k then (k, v) else x)).find? (fun x => x.1 = k') = d.find? (fun x => x.1 = k') := by
      induction d with
      | nil => rfl
      | cons y d ih =>
        rename_i hany
        rw [List.map_cons]
        have ih' : (d.map (fun x => if x.1 = k then (k, v) else x)).find? (fun x => x.1 = k') = d.find? (fun x => x.1 = k') := by
          clear hany ih
          induction d with
          | nil => rfl
          | cons z d ih =>
            rw [List.map_cons, List.find?_cons, List.find?_cons, ih]
            by_cases hz : z.1 = k
            · rw [if_pos hz]
              have h1 : ¬ k = k' := fun e => h e.symm
              have h2 : ¬ z.1 = k' := fun e => h (e.symm.trans hz)
              simp [h1, h2]
            · rw [if_neg hz]
        rw [List.find?_cons, List.find?_cons, ih']
        by_cases hz : y.1 = k
        · rw [if_pos hz]
          have h1 : ¬ k = k' := fun e => h e.symm
          have h2 : ¬ y.1 = k' := fun e => h (e.symm.trans hz)
          simp [h1, h2]
        · rw [if_neg hz]
    rw [this]
  · unfold getKey
    rw [List.find?_append]
    have : ([(k, v)] : LevelData α).find? (fun x => x.1 = k') = none := by
      rw [List.find?_eq_none]
      intro x hx
      rw [List.mem_singleton] at hx
      subst hx
      simpa using fun e => h e.symm
    rw [this, Option.or_none]

/-- The loop gives every parameter of the lower level its interpolated value. -/
theorem interpLoop_spec [FloorRing α] (w missing : α) (bdata adata out : LevelData α) (hk : (adata.map Prod.fst).Nodup)
    (hb : ∀ k ∈ adata.map Prod.fst, ∃ v, getKey bdata k = .ok v) :
    ∃ res, interpLoop w missing bdata adata out = .ok res ∧
      (∀ k a, (k, a) ∈ adata → ∀ b, getKey bdata k = .ok b → getKey res k = .ok (interpParam w missing k a b)) ∧
      (∀ k, k ∉ adata.map Prod.fst → getKey res k = getKey out k) := by
  induction adata generalizing out with
  | nil => exact ⟨out, rfl, fun k a h => absurd h (List.not_mem_nil), fun k _ => rfl⟩
  | cons x r ih =>
    obtain ⟨p, a⟩ := x
    rw [List.map_cons, List.nodup_cons] at hk
    obtain ⟨b, hb1⟩ := hb p (by simp)
    obtain ⟨res, h1, h2, h3⟩ := ih (setKey out p (interpParam w missing p a b)) hk.2
      (fun k hk' => hb k (List.mem_cons_of_mem _ hk'))
    refine ⟨res, ?_, ?_, ?_⟩
    · rw [interpLoop, hb1, ok_bind]; exact h1
    · intro k a' hm b' hb'
      rcases List.mem_cons.mp hm with e | hm
      · obtain ⟨rfl, rfl⟩ := Prod.mk.inj e
        rw [hb1] at hb'
        rw [h3 k hk.1, getKey_setKey_self, Except.ok.inj hb']
      · exact h2 k a' hm b' hb'
    · intro k hk'
      rw [List.map_cons, List.mem_cons, not_or] at hk'
      rw [h3 k hk'.2, getKey_setKey_ne _ _ _ _ hk'.1]

theorem getKey_mem {d : LevelData α} {k : String} {v : α} (h : getKey d k = .ok v) : (k, v) ∈ d := by
  unfold getKey at h
  cases hf : d.find? (fun x => x.1 = k) with
  | none => rw [hf] at h; cases h
  | some x =>
    rw [hf] at h
    have h1 := List.mem_of_find?_eq_some hf
    have h2 := List.find?_some hf
    have h3 : x.2 = v := Except.ok.inj h
    have h4 : x.1 = k := by simpa using h2
    rw [← h3, ← h4]; exact h1

end

/-! ## C45 -/

/-- A pressure lies strictly between two others. -/
def Spec.Between (p1 p2 v : ℝ) : Prop := min p1 p2 < v ∧ v < max p1 p2

/-- `f` is the affine function of the logarithm with value `a` at `p1` and `b` at `p2`. -/
def Spec.LogLine (p1 a p2 b : ℝ) (f : ℝ → ℝ) : Prop :=
  (∃ m k : ℝ, ∀ p, f p = m * Real.log p + k) ∧ f p1 = a ∧ f p2 = b

/-- The two dictionaries can be combined. -/
structure Spec.Levels (adata bdata : LevelData ℝ) (p1 p2 : ℝ) : Prop where
  keys : (adata.map Prod.fst).Nodup
  common : ∀ k ∈ adata.map Prod.fst, ∃ v, getKey bdata k = .ok v
  low : getKey adata "PRES" = .ok p1
  high : getKey bdata "PRES" = .ok p2

open Spec

theorem between_iff (p1 p2 v : ℝ) : strictlyBetween p1 p2 v ↔ Between p1 p2 v := by
  unfold strictlyBetween Between
  constructor
  · rintro (⟨h, h1, h2⟩ | ⟨h, h1, h2⟩)
    · rw [min_eq_left h.le, max_eq_right h.le]; exact ⟨h1, h2⟩
    · rw [min_eq_right h.le, max_eq_left h.le]; exact ⟨h1, h2⟩
  · rintro ⟨h1, h2⟩
    rcases lt_trichotomy p1 p2 with h | h | h
    · rw [min_eq_left h.le] at h1; rw [max_eq_right h.le] at h2; exact Or.inl ⟨h, h1, h2⟩
    · subst h; rw [min_self] at h1; rw [max_self] at h2; exact absurd (h1.trans h2) (lt_irrefl _)
    · rw [min_eq_right h.le] at h1; rw [max_eq_left h.le] at h2; exact Or.inr ⟨h, h1, h2⟩

/-- The weight of the upper level. -/
noncomputable def weight (p1 p2 v : ℝ) : ℝ := Real.log (v / p1) / Real.log (p2 / p1)

theorem weight_eq {p1 p2 v : ℝ} (h1 : 0 < p1) (h2 : 0 < p2) (hv : 0 < v) :
    weight p1 p2 v = (Real.log v - Real.log p1) / (Real.log p2 - Real.log p1) := by
  unfold weight
  rw [Real.log_div hv.ne' h1.ne', Real.log_div h2.ne' h1.ne']

theorem between_pos {p1 p2 v : ℝ} (h1 : 0 < p1) (h2 : 0 < p2) (hb : Between p1 p2 v) : 0 < v :=
  lt_trans (lt_min h1 h2) hb.1

theorem weight_mem {p1 p2 v : ℝ} (h1 : 0 < p1) (h2 : 0 < p2) (hb : Between p1 p2 v) : 0 < weight p1 p2 v ∧ weight p1 p2 v < 1 := by
  have hv := between_pos h1 h2 hb
  rw [weight_eq h1 h2 hv]
  rcases (between_iff p1 p2 v).mpr hb with ⟨h, ha, hc⟩ | ⟨h, ha, hc⟩
  · have e1 := Real.log_lt_log h1 ha
    have e2 := Real.log_lt_log hv hc
    have e3 : 0 < Real.log p2 - Real.log p1 := by linarith
    exact ⟨div_pos (by linarith) e3, (div_lt_one e3).mpr (by linarith)⟩
  · have e1 := Real.log_lt_log h2 ha
    have e2 := Real.log_lt_log hv hc
    have e3 : Real.log p2 - Real.log p1 < 0 := by linarith
    exact ⟨div_pos_of_neg_of_neg (by linarith) e3, (div_lt_one_of_neg e3).mpr (by linarith)⟩

theorem log_ne {p1 p2 v : ℝ} (h1 : 0 < p1) (h2 : 0 < p2) (hb : Between p1 p2 v) : Real.log p2 - Real.log p1 ≠ 0 := by
  intro h
  have : Real.log p2 = Real.log p1 := by linarith
  have : p2 = p1 := Real.log_injOn_pos (Set.mem_Ioi.mpr h2) (Set.mem_Ioi.mpr h1) this
  subst this
  have := hb
  unfold Between at this
  rw [min_self, max_self] at this
  linarith [this.1, this.2]

theorem logLine_value {p1 p2 v a b : ℝ} (h1 : 0 < p1) (h2 : 0 < p2) (hb : Between p1 p2 v) {f : ℝ → ℝ} (hf : LogLine p1 a p2 b f) :
    f v = a + (b - a) * weight p1 p2 v := by
  obtain ⟨⟨m, k, h⟩, ha, hb'⟩ := hf
  have hne := log_ne h1 h2 hb
  rw [weight_eq h1 h2 (between_pos h1 h2 hb), ← ha, ← hb', h, h, h]
  field_simp
  ring

/-- There is one such function. -/
theorem logLine_exists {p1 p2 v : ℝ} (h1 : 0 < p1) (h2 : 0 < p2) (hb : Between p1 p2 v) (a b : ℝ) : ∃ f, LogLine p1 a p2 b f := by
  have hne := log_ne h1 h2 hb
  refine ⟨fun p => (b - a) / (Real.log p2 - Real.log p1) * Real.log p + (a - (b - a) / (Real.log p2 - Real.log p1) * Real.log p1),
    ⟨_, _, fun p => rfl⟩, ?_, ?_⟩
  · show _ = a; ring
  · show _ = b; field_simp; ring

theorem interp_runs {adata bdata : LevelData ℝ} {p1 p2 v : ℝ} (hl : Levels adata bdata p1 p2) (h1 : 0 < p1) (h2 : 0 < p2)
    (hb : Between p1 p2 v) (missing : ℝ) :
    ∃ out, interpParameters realCalc v adata bdata missing = .ok out ∧
      ∀ k a, (k, a) ∈ adata → ∀ b, getKey bdata k = .ok b → getKey out k = .ok (interpParam (weight p1 p2 v) missing k a b) := by
  obtain ⟨out, h3, h4, _⟩ := interpLoop_spec (weight p1 p2 v) missing bdata adata [("PRES", v)] hl.keys hl.common
  refine ⟨out, ?_, h4⟩
  unfold interpParameters
  rw [hl.low, ok_bind, hl.high, ok_bind]
  rw [if_neg (not_not.mpr ((between_iff p1 p2 v).mpr hb)), if_neg (by push Not; exact ⟨h1, h2⟩)]
  exact h3

/-- C45: at a pressure strictly between two levels every parameter that is not a direction and present in both levels gets the value of
the line through the two levels over the logarithm of pressure, and that value lies between the two. -/
theorem C45_between (adata bdata : LevelData ℝ) (p1 p2 v missing : ℝ) (hl : Levels adata bdata p1 p2) (h1 : 0 < p1) (h2 : 0 < p2)
    (hb : Between p1 p2 v) :
    ∃ out, interpParameters realCalc v adata bdata missing = .ok out ∧
      ∀ k a b, (k, a) ∈ adata → getKey bdata k = .ok b → k ≠ "DRCT" → a ≠ missing → b ≠ missing →
        ∃ r, getKey out k = .ok r ∧ (∀ f, LogLine p1 a p2 b f → r = f v) ∧ min a b ≤ r ∧ r ≤ max a b ∧
          (a ≠ b → min a b < r ∧ r < max a b) := by
  obtain ⟨out, h3, h4⟩ := interp_runs hl h1 h2 hb missing
  refine ⟨out, h3, fun k a b ha hb' hk hma hmb => ⟨_, h4 k a ha b hb', ?_⟩⟩
  have e : interpParam (weight p1 p2 v) missing k a b = a + (b - a) * weight p1 p2 v := by
    unfold interpParam
    rw [if_neg (by rintro (h | h) <;> [exact hma h.symm; exact hmb h.symm]), if_neg hk]
  rw [e]
  obtain ⟨w0, w1⟩ := weight_mem h1 h2 hb
  refine ⟨fun f hf => (logLine_value h1 h2 hb hf).symm, ?_, ?_, ?_⟩
  · rcases le_total a b with h | h
    · rw [min_eq_left h]; nlinarith [mul_nonneg (sub_nonneg.mpr h) w0.le]
    · rw [min_eq_right h]; nlinarith [mul_nonneg (sub_nonneg.mpr h) (sub_nonneg.mpr w1.le)]
  · rcases le_total a b with h | h
    · rw [max_eq_right h]; nlinarith [mul_nonneg (sub_nonneg.mpr h) (sub_nonneg.mpr w1.le)]
    · rw [max_eq_left h]; nlinarith [mul_nonneg (sub_nonneg.mpr h) w0.le]
  · intro hab
    rcases lt_or_gt_of_ne hab with h | h
    · rw [min_eq_left h.le, max_eq_right h.le]
      constructor
      · nlinarith [mul_pos (sub_pos.mpr h) w0]
      · nlinarith [mul_pos (sub_pos.mpr h) (sub_pos.mpr w1)]
    · rw [min_eq_right h.le, max_eq_left h.le]
      constructor
      · nlinarith [mul_pos (sub_pos.mpr h) (sub_pos.mpr w1)]
      · nlinarith [mul_pos (sub_pos.mpr h) w0]

/-- C45: values missing in one of the levels stay missing. -/
theorem C45_missing (adata bdata : LevelData ℝ) (p1 p2 v missing : ℝ) (hl : Levels adata bdata p1 p2) (h1 : 0 < p1) (h2 : 0 < p2)
    (hb : Between p1 p2 v) :
    ∃ out, interpParameters realCalc v adata bdata missing = .ok out ∧
      ∀ k a b, (k, a) ∈ adata → getKey bdata k = .ok b → a = missing ∨ b = missing → getKey out k = .ok missing := by
  obtain ⟨out, h3, h4⟩ := interp_runs hl h1 h2 hb missing
  refine ⟨out, h3, fun k a b ha hb' hm => ?_⟩
  rw [h4 k a ha b hb']
  unfold interpParam
  rw [if_pos (by rcases hm with h | h <;> [exact Or.inl h.symm; exact Or.inr h.symm])]

/-- C45: a pressure not strictly between the levels, or a level pressure that is not positive, raises `ValueError`. -/
theorem C45_raises (adata bdata : LevelData ℝ) (p1 p2 v missing : ℝ) (hl : getKey adata "PRES" = .ok p1)
    (hu : getKey bdata "PRES" = .ok p2) (h : ¬ Between p1 p2 v ∨ p1 ≤ 0 ∨ p2 ≤ 0) :
    interpParameters realCalc v adata bdata missing = .error .valueError := by
  unfold interpParameters
  rw [hl, ok_bind, hu, ok_bind]
  by_cases hb : strictlyBetween p1 p2 v
  · rw [if_neg (not_not.mpr hb), if_pos]
    exact h.resolve_left (not_not.mpr ((between_iff _ _ _).mp hb))
  · rw [if_pos hb]

theorem getKey_absent {d : LevelData ℝ} {k : String} (h : ∀ x ∈ d, x.1 ≠ k) : getKey d k = .error .keyError := by
  unfold getKey
  have : d.find? (fun x => x.1 = k) = none := by
    rw [List.find?_eq_none]
    intro x hx
    simpa using h x hx
  rw [this]

/-- C45: a level without pressure, or a parameter that the upper level does not have, raises `KeyError`. -/
theorem C45_key (adata bdata : LevelData ℝ) (v missing : ℝ) :
    ((∀ x ∈ adata, x.1 ≠ "PRES") ∨ (∀ x ∈ bdata, x.1 ≠ "PRES") → interpParameters realCalc v adata bdata missing = .error .keyError) ∧
    ∀ p1 p2, getKey adata "PRES" = .ok p1 → getKey bdata "PRES" = .ok p2 → 0 < p1 → 0 < p2 → Between p1 p2 v →
      (∃ k a, (k, a) ∈ adata ∧ ∀ x ∈ bdata, x.1 ≠ k) → interpParameters realCalc v adata bdata missing = .error .keyError := by
  constructor
  · intro h
    unfold interpParameters
    by_cases ha : ∀ x ∈ adata, x.1 ≠ "PRES"
    · rw [getKey_absent ha]; rfl
    · have hb := h.resolve_left ha
      cases hk : getKey adata "PRES" with
      | ok p => rw [ok_bind, getKey_absent hb]; rfl
      | error e =>
        unfold getKey at hk
        split at hk
        · cases hk
        · cases hk; rfl
  · intro p1 p2 h1 h2 h3 h4 h5 h6
    unfold interpParameters
    rw [h1, ok_bind, h2, ok_bind]
    rw [if_neg (not_not.mpr ((between_iff p1 p2 v).mpr h5)), if_neg (by push Not; exact ⟨h3, h4⟩)]
    obtain ⟨k, a, hm, hx⟩ := h6
    clear h1
    generalize [("PRES", v)] = out
    generalize realCalc.log (v / p1) / realCalc.log (p2 / p1) = w
    induction adata generalizing out with
    | nil => cases hm
    | cons y r ih =>
      unfold interpLoop
      cases hk : getKey bdata y.1 with
      | error e =>
        unfold getKey at hk
        split at hk
        · cases hk
        · cases hk; rfl
      | ok q =>
        rw [ok_bind]
        rcases List.mem_cons.1 hm with rfl | hm
        · rw [getKey_absent hx] at hk; cases hk
        · exact ih hm _

example : interpParameters realCalc 2 [("PRES", 4), ("TEMP", 1)] [("PRES", 1)] (-9999) = .error .keyError := by
  refine (C45_key _ _ _ _).2 4 1 ?_ ?_ (by norm_num) (by norm_num) (by unfold Between; norm_num) ⟨"TEMP", 1, by simp, by simp⟩ <;> simp [getKey]

/-- The pressure that is returned is not the one asked for: it is interpolated like every other parameter and always too high. -/
theorem C45_pressure (adata bdata : LevelData ℝ) (p1 p2 v missing : ℝ) (hl : Levels adata bdata p1 p2) (h1 : 0 < p1) (h2 : 0 < p2)
    (hb : Between p1 p2 v) (hm1 : p1 ≠ missing) (hm2 : p2 ≠ missing) :
    ∃ out r, interpParameters realCalc v adata bdata missing = .ok out ∧ getKey out "PRES" = .ok r ∧ v < r := by
  obtain ⟨out, h3, h4⟩ := interp_runs hl h1 h2 hb missing
  refine ⟨out, _, h3, h4 "PRES" p1 (getKey_mem hl.low) p2 hl.high, ?_⟩
  have e : interpParam (weight p1 p2 v) missing "PRES" p1 p2 = p1 + (p2 - p1) * weight p1 p2 v := by
    unfold interpParam
    rw [if_neg (by rintro (h | h) <;> [exact hm1 h.symm; exact hm2 h.symm]), if_neg (by decide)]
  rw [e]
  obtain ⟨w0, w1⟩ := weight_mem h1 h2 hb
  have hne := log_ne h1 h2 hb
  have hv := between_pos h1 h2 hb
  have hlog : Real.log v = (1 - weight p1 p2 v) * Real.log p1 + weight p1 p2 v * Real.log p2 := by
    rw [weight_eq h1 h2 hv]; field_simp; ring
  have hs := strictConvexOn_exp.2 (Set.mem_univ (Real.log p1)) (Set.mem_univ (Real.log p2))
    (fun h => hne (by rw [h]; ring)) (show 0 < 1 - weight p1 p2 v by linarith) w0 (by ring)
  simp only [smul_eq_mul] at hs
  rw [← hlog, Real.exp_log hv, Real.exp_log h1, Real.exp_log h2] at hs
  linarith

/-- Temperatures of two levels, read half way in the logarithm. -/
noncomputable def sampleLow : LevelData ℝ := [("PRES", 1), ("TEMP", 10), ("DRCT", 350)]
noncomputable def sampleHigh : LevelData ℝ := [("PRES", 4), ("TEMP", 20), ("DRCT", 10)]

theorem sampleLevels : Levels sampleLow sampleHigh 1 4 := by
  refine ⟨by simp [sampleLow], ?_, by simp [sampleLow, getKey], by simp [sampleHigh, getKey]⟩
  intro k hk
  simp only [sampleLow, List.map_cons, List.map_nil, List.mem_cons, List.not_mem_nil, or_false] at hk
  rcases hk with rfl | rfl | rfl
  · exact ⟨4, by simp [sampleHigh, getKey]⟩
  · exact ⟨20, by simp [sampleHigh, getKey]⟩
  · exact ⟨10, by simp [sampleHigh, getKey]⟩

theorem sampleBetween : Between 1 4 2 := by
  unfold Between
  rw [min_eq_left (by norm_num), max_eq_right (by norm_num)]
  norm_num

theorem sampleWeight : weight 1 4 2 = 1 / 2 := by
  unfold weight
  rw [div_one, div_one, show (4 : ℝ) = 2 ^ 2 by norm_num, Real.log_pow]
  have : Real.log 2 ≠ 0 := by
    have := Real.log_pos (show (1 : ℝ) < 2 by norm_num)
    exact this.ne'
  field_simp
  norm_num

/-- Half way between the levels the temperature is 15 and the pressure returned is 2.5 instead of 2. -/
example : ∃ out, interpParameters realCalc 2 sampleLow sampleHigh (-9999) = .ok out ∧ getKey out "TEMP" = .ok 15 ∧
    getKey out "PRES" = .ok (5 / 2) := by
  obtain ⟨out, h1, h2⟩ := interp_runs sampleLevels (by norm_num) (by norm_num) sampleBetween (-9999)
  refine ⟨out, h1, ?_, ?_⟩
  · rw [h2 "TEMP" 10 (by simp [sampleLow]) 20 (by simp [sampleHigh, getKey]), sampleWeight]
    unfold interpParam
    rw [if_neg (by norm_num), if_neg (by decide)]
    norm_num
  · rw [h2 "PRES" 1 (by simp [sampleLow]) 4 (by simp [sampleHigh, getKey]), sampleWeight]
    unfold interpParam
    rw [if_neg (by norm_num), if_neg (by decide)]
    norm_num

/-! ## C46 -/

theorem mod360_spec (x : ℝ) : 0 ≤ mod360 x ∧ mod360 x < 360 ∧ ∃ k : ℤ, mod360 x = x + 360 * k := by
  unfold mod360
  have h1 := Int.floor_le (x / 360)
  have h2 := Int.lt_floor_add_one (x / 360)
  refine ⟨?_, ?_, -⌊x / 360⌋, by push_cast; ring⟩
  · have : (⌊x / 360⌋ : ℝ) * 360 ≤ x := by
      calc (⌊x / 360⌋ : ℝ) * 360 ≤ x / 360 * 360 := by nlinarith
        _ = x := by ring
    linarith
  · have : x < ((⌊x / 360⌋ : ℝ) + 1) * 360 := by
      calc x = x / 360 * 360 := by ring
        _ < _ := by nlinarith
    linarith

/-- C46: the direction lies in [0, 360) and is reached from the lower level's direction by the fraction `weight` of a turn that leads to
the upper level's direction and is at most half a circle. -/
theorem C46_direction (adata bdata : LevelData ℝ) (p1 p2 v missing a b : ℝ) (hl : Levels adata bdata p1 p2) (h1 : 0 < p1)
    (h2 : 0 < p2) (hb : Between p1 p2 v) (ha : ("DRCT", a) ∈ adata) (hb' : getKey bdata "DRCT" = .ok b) (hma : a ≠ missing)
    (hmb : b ≠ missing) :
    ∃ out r, interpParameters realCalc v adata bdata missing = .ok out ∧ getKey out "DRCT" = .ok r ∧ 0 ≤ r ∧ r < 360 ∧
      ∃ (turn : ℝ) (k m : ℤ), |turn| ≤ 180 ∧ a + turn = b + 360 * k ∧
        ∃ w, 0 < w ∧ w < 1 ∧ (∀ f, LogLine p1 0 p2 1 f → w = f v) ∧ r = a + w * turn + 360 * m := by
  obtain ⟨out, h3, h4⟩ := interp_runs hl h1 h2 hb missing
  refine ⟨out, _, h3, h4 "DRCT" a ha b hb', ?_⟩
  have e : interpParam (weight p1 p2 v) missing "DRCT" a b = interpDirection a b (weight p1 p2 v) := by
    unfold interpParam
    rw [if_neg (by rintro (h | h) <;> [exact hma h.symm; exact hmb h.symm]), if_pos rfl]
  rw [e]
  obtain ⟨w0, w1⟩ := weight_mem h1 h2 hb
  have hw : ∀ f, LogLine p1 0 p2 1 f → weight p1 p2 v = f v := fun f hf => by
    rw [logLine_value h1 h2 hb hf]; ring
  unfold interpDirection
  obtain ⟨a0, a1, ka, ea⟩ := mod360_spec a
  obtain ⟨b0, b1, kb, eb⟩ := mod360_spec b
  generalize mod360 a = A at *
  generalize mod360 b = B at *
  dsimp only
  have main : ∀ (x y : ℝ) (i j : ℤ), x = A + 360 * i → y = B + 360 * j → |y - x| ≤ 180 →
      0 ≤ mod360 (x + (y - x) * weight p1 p2 v) ∧ mod360 (x + (y - x) * weight p1 p2 v) < 360 ∧
      ∃ (turn : ℝ) (k m : ℤ), |turn| ≤ 180 ∧ a + turn = b + 360 * k ∧
        ∃ w, 0 < w ∧ w < 1 ∧ (∀ f, LogLine p1 0 p2 1 f → w = f v) ∧
          mod360 (x + (y - x) * weight p1 p2 v) = a + w * turn + 360 * m := by
    intro x y i j hx hy hxy
    obtain ⟨m0, m1, km, em⟩ := mod360_spec (x + (y - x) * weight p1 p2 v)
    refine ⟨m0, m1, y - x, kb + j - ka - i, ka + i + km, hxy, ?_, weight p1 p2 v, w0, w1, hw, ?_⟩
    · rw [hx, hy, ea, eb]; push_cast; ring
    · rw [em, hx, ea]; push_cast; ring
  split
  · rename_i hgt
    split
    · rename_i hlt
      refine main (A + 360) B 1 0 (by push_cast; ring) (by push_cast; ring) ?_
      rw [abs_of_neg (by linarith)] at hgt
      rw [abs_le]
      constructor <;> linarith
    · rename_i hlt
      refine main A (B + 360) 0 1 (by push_cast; ring) (by push_cast; ring) ?_
      rw [abs_of_nonneg (by linarith)] at hgt
      rw [abs_le]
      constructor <;> linarith
  · rename_i hle
    rw [not_lt] at hle
    exact main A B 0 0 (by push_cast; ring) (by push_cast; ring) (by rw [abs_sub_comm]; exact hle)

/-- From 350 to 10 degrees through north: half way is 0. -/
example : ∃ out, interpParameters realCalc 2 sampleLow sampleHigh (-9999) = .ok out ∧ getKey out "DRCT" = .ok 0 := by
  obtain ⟨out, h1, h2⟩ := interp_runs sampleLevels (by norm_num) (by norm_num) sampleBetween (-9999)
  refine ⟨out, h1, ?_⟩
  rw [h2 "DRCT" 350 (by simp [sampleLow]) 10 (by simp [sampleHigh, getKey]), sampleWeight]
  unfold interpParam
  rw [if_neg (by norm_num), if_pos rfl]
  have f1 : (mod360 (350 : ℝ)) = 350 := by
    unfold mod360; rw [show ⌊(350 : ℝ) / 360⌋ = 0 by rw [Int.floor_eq_iff]; norm_num]; norm_num
  have f2 : (mod360 (10 : ℝ)) = 10 := by
    unfold mod360; rw [show ⌊(10 : ℝ) / 360⌋ = 0 by rw [Int.floor_eq_iff]; norm_num]; norm_num
  have f3 : (mod360 (360 : ℝ)) = 0 := by
    unfold mod360; rw [show ⌊(360 : ℝ) / 360⌋ = 1 by rw [Int.floor_eq_iff]; norm_num]; norm_num
  unfold interpDirection
  rw [f1, f2]
  dsimp only
  rw [if_pos (by rw [abs_of_pos (by norm_num)]; norm_num), if_neg (by norm_num)]
  dsimp only
  rw [show (350 : ℝ) + (10 + 360 - 350) * (1 / 2) = 360 by norm_num, f3]

/-! ## C47, C48 -/

/-- A value that may be missing, as stored. -/
noncomputable def Spec.marked (missing : ℝ) (v : Option ℝ) : ℝ := v.getD missing

/-- Vapour pressure over a dew point (degrees Celsius). -/
noncomputable def Spec.vapour (d : ℝ) : ℝ := 6.112 * Real.exp (17.67 * d / (d + 243.5))

/-- Vapour pressure corrected for moist air. -/
noncomputable def Spec.moistVapour (d p : ℝ) : ℝ := (1.001 + (p - 100) / 900 * 0.0034) * vapour d

/-- Mixing ratio in g/kg; none when an input is missing or the vapour would make up more than half of the pressure. -/
noncomputable def Spec.mixing : Option ℝ → Option ℝ → Option ℝ
  | some d, some p => if moistVapour d p > p / 2 then none else some (0.62197 * (moistVapour d p / (p - moistVapour d p)) * 1000)
  | _, _ => none

/-- Virtual temperature in kelvin: the temperature itself when there is no mixing ratio. -/
noncomputable def Spec.virtualTemp : Option ℝ → Option ℝ → Option ℝ → Option ℝ
  | some t, d, some p =>
    match mixing d (some p) with
    | none => some (t + 273.15)
    | some r => some ((t + 273.15) * (1 + 0.001 * r / 0.62197) / (1 + 0.001 * r))
  | _, _, _ => none

/-- Scale height: the mean virtual temperature of both levels times `Rd / g`. -/
noncomputable def Spec.scale (tb tt db dt pb pt : Option ℝ) : Option ℝ :=
  match virtualTemp tb db pb, virtualTemp tt dt pt with
  | some a, some b => some (287.04 / 9.80616 * ((a + b) / 2))
  | _, _ => none

/-- Height of the upper level; none when an input is missing or a pressure is not positive. -/
noncomputable def Spec.height : Option ℝ → Option ℝ → Option ℝ → Option ℝ → Option ℝ
  | some z, some pb, some pt, some h => if 0 < pb ∧ 0 < pt then some (z + h * (Real.log pb - Real.log pt)) else none
  | _, _, _, _ => none

theorem mixing_some (d p : ℝ) : mixing (some d) (some p) =
    if moistVapour d p > p / 2 then none else some (0.62197 * (moistVapour d p / (p - moistVapour d p)) * 1000) := rfl

theorem virtualTemp_dry {t p : ℝ} {d : Option ℝ} (h : mixing d (some p) = none) :
    virtualTemp (some t) d (some p) = some (t + 273.15) := by
  cases d <;> (unfold virtualTemp; simp only [h])

theorem virtualTemp_moist {t p r : ℝ} {d : Option ℝ} (h : mixing d (some p) = some r) :
    virtualTemp (some t) d (some p) = some ((t + 273.15) * (1 + 0.001 * r / 0.62197) / (1 + 0.001 * r)) := by
  cases d <;> (unfold virtualTemp; simp only [h])

theorem height_some (z pb pt h : ℝ) : height (some z) (some pb) (some pt) (some h) =
    if 0 < pb ∧ 0 < pt then some (z + h * (Real.log pb - Real.log pt)) else none := rfl

theorem vapour_pos (d : ℝ) : 0 < vapour d := by unfold vapour; positivity

theorem moistVapour_pos {d p : ℝ} (hp : 0 ≤ p) : 0 < moistVapour d p := by
  unfold moistVapour
  refine mul_pos ?_ (vapour_pos d)
  have : (0 : ℝ) < 1.001 + (p - 100) / 900 * 0.0034 := by
    have h : (p - 100) / 900 * 0.0034 = p / 900 * 0.0034 - 100 / 900 * 0.0034 := by ring
    rw [h]
    have : 0 ≤ p / 900 * 0.0034 := by positivity
    norm_num
    norm_num at this
    linarith
  exact this

/-- C47: vapour pressure is missing exactly when the dew point is. -/
theorem C47_vapour (missing : ℝ) (hm : missing < 0) (d : Option ℝ) (hd : d ≠ some missing) :
    vaporPressure realCalc (marked missing d) missing = marked missing (d.map vapour) ∧ d.map vapour ≠ some missing := by
  cases d with
  | none => exact ⟨by simp [marked, vaporPressure], by simp⟩
  | some d =>
    have h : d ≠ missing := fun e => hd (by rw [e])
    constructor
    · unfold vaporPressure
      show (if d = missing then _ else _) = _
      rw [if_neg h]
      simp only [marked, Option.map_some, Option.getD_some, vapour, realCalc]
      norm_num
    · intro e
      have := vapour_pos d
      rw [Option.some.inj e] at this
      linarith

/-- C48: the mixing ratio is never negative. -/
theorem C48_mixing (d p : Option ℝ) (hp : ∀ x, p = some x → 0 ≤ x) (r : ℝ) (h : mixing d p = some r) : 0 ≤ r := by
  match d, p, h with
  | some d, some p, h =>
    rw [mixing_some] at h
    by_cases hle : moistVapour d p > p / 2
    · rw [if_pos hle] at h; cases h
    · rw [if_neg hle] at h
      rw [gt_iff_lt, not_lt] at hle
      have hpos := moistVapour_pos (d := d) (hp p rfl)
      rw [← Option.some.inj h]
      have : 0 < p - moistVapour d p := by linarith
      have := div_pos hpos this
      positivity
  | none, _, h => simp [mixing] at h
  | some _, none, h => simp [mixing] at h

/-- C47: the mixing ratio is missing exactly when dew point or pressure is, or the air could not hold that much vapour. -/
theorem C47_mixing (missing : ℝ) (hm : missing < 0) (d p : Option ℝ) (hd : d ≠ some missing) (hp : ∀ x, p = some x → 0 ≤ x) :
    mixingRatio realCalc (marked missing d) (marked missing p) missing = marked missing (mixing d p) ∧
      mixing d p ≠ some missing := by
  refine ⟨?_, fun e => absurd (C48_mixing d p hp missing e) (not_le.mpr hm)⟩
  match d, p with
  | none, p => simp [marked, mixingRatio, mixing]
  | some d, none => simp [marked, mixingRatio, mixing]
  | some d, some p =>
    have h1 : d ≠ missing := fun e => hd (by rw [e])
    have h2 : p ≠ missing := fun e => absurd (hp p rfl) (by rw [e]; exact not_le.mpr hm)
    obtain ⟨hv, hvn⟩ := C47_vapour missing hm (some d) hd
    have hv' : vaporPressure realCalc d missing = vapour d := hv
    have hvn' : vapour d ≠ missing := fun e => hvn (by rw [Option.map_some, e])
    unfold mixingRatio
    show (if d = missing ∨ p = missing then _ else _) = _
    rw [if_neg (by rintro (h | h) <;> contradiction)]
    dsimp only
    have e1 : vaporPressure realCalc (marked missing (some d)) missing = vapour d := hv'
    rw [e1, if_neg hvn']
    have e2 : mixCorr (marked missing (some p)) * vapour d = moistVapour d p := by
      unfold mixCorr moistVapour
      show (1001 / 1000 + (p - 100) / 900 * (34 / 10000)) * vapour d = _
      norm_num
    rw [e2]
    show (if moistVapour d p > 5 / 10 * p then _ else _) = _
    rw [show (5 / 10 * p : ℝ) = p / 2 by ring]
    rw [mixing_some]
    by_cases hc : moistVapour d p > p / 2
    · rw [if_pos hc, if_pos hc]; rfl
    · rw [if_neg hc, if_neg hc]
      show 62197 / 100000 * (moistVapour d p / (p - moistVapour d p)) * 1000 = _
      simp only [marked, Option.getD_some]
      norm_num

theorem virtual_ge {t r : ℝ} (ht : -273.15 ≤ t) (hr : 0 ≤ r) :
    t + 273.15 ≤ (t + 273.15) * (1 + 0.001 * r / 0.62197) / (1 + 0.001 * r) := by
  have h1 : (0 : ℝ) < 1 + 0.001 * r := by positivity
  rw [le_div_iff₀ h1]
  apply mul_le_mul_of_nonneg_left _ (by linarith)
  have : 0.001 * r ≤ 0.001 * r / 0.62197 := by
    rw [le_div_iff₀ (by norm_num)]
    nlinarith
  linarith

/-- C48: the virtual temperature is at least the temperature. -/
theorem C48_virtual (t : ℝ) (d p : Option ℝ) (ht : -273.15 ≤ t) (hp : ∀ x, p = some x → 0 ≤ x) (v : ℝ)
    (h : virtualTemp (some t) d p = some v) : t + 273.15 ≤ v := by
  match p, h with
  | none, h => cases d <;> simp [virtualTemp] at h
  | some p, h =>
    cases hm : mixing d (some p) with
    | none => rw [virtualTemp_dry hm] at h; rw [← Option.some.inj h]
    | some r =>
      rw [virtualTemp_moist hm] at h
      rw [← Option.some.inj h]
      exact virtual_ge ht (C48_mixing d (some p) hp r hm)

/-- C47: the virtual temperature is missing exactly when temperature or pressure is. -/
theorem C47_virtual (missing : ℝ) (hm : missing < 0) (t d p : Option ℝ) (ht : ∀ x, t = some x → -273.15 ≤ x ∧ x ≠ missing)
    (hd : d ≠ some missing) (hp : ∀ x, p = some x → 0 ≤ x) :
    virtualTemperature realCalc (marked missing t) (marked missing d) (marked missing p) missing =
        marked missing (virtualTemp t d p) ∧ virtualTemp t d p ≠ some missing := by
  constructor
  · match t, p with
    | none, p => cases d <;> cases p <;> simp [marked, virtualTemperature, virtualTemp]
    | some t, none => cases d <;> simp [marked, virtualTemperature, virtualTemp]
    | some t, some p =>
      have h1 : t ≠ missing := (ht t rfl).2
      have h2 : p ≠ missing := fun e => absurd (hp p rfl) (by rw [e]; exact not_le.mpr hm)
      obtain ⟨hmix, hmn⟩ := C47_mixing missing hm d (some p) hd hp
      unfold virtualTemperature
      show (if t = missing ∨ p = missing then _ else _) = _
      rw [if_neg (by rintro (h | h) <;> contradiction)]
      dsimp only
      rw [hmix]
      match d with
      | none =>
        rw [if_pos (show marked missing none = missing from rfl), virtualTemp_dry (show mixing none (some p) = none from rfl)]
        show t + 27315 / 100 = _
        simp only [marked, Option.getD_some]
        norm_num
      | some d =>
        have h3 : marked missing (some d) ≠ missing := fun e => hd (by rw [← e]; rfl)
        rw [if_neg h3]
        cases hmx : mixing (some d) (some p) with
        | none =>
          rw [if_pos (show marked missing none = missing from rfl), virtualTemp_dry hmx]
          show t + 27315 / 100 = _
          simp only [marked, Option.getD_some]
          norm_num
        | some r =>
          have : marked missing (some r) ≠ missing := fun e => hmn (by rw [hmx, ← e]; rfl)
          rw [if_neg this, virtualTemp_moist hmx]
          show (t + 27315 / 100) * (1 + 1 / 1000 * r / (62197 / 100000)) / (1 + 1 / 1000 * r) = _
          simp only [marked, Option.getD_some]
          norm_num
  · intro e
    match t, p with
    | none, p => cases d <;> cases p <;> simp [virtualTemp] at e
    | some t, none => cases d <;> simp [virtualTemp] at e
    | some t, some p =>
      have := C48_virtual t d (some p) (ht t rfl).1 hp missing e
      have := (ht t rfl).1
      linarith

/-- C48 on the code: with temperature and pressure present the value returned is at least the temperature in kelvin. -/
theorem C48_code (missing t p : ℝ) (hm : missing < 0) (d : Option ℝ) (ht : -273.15 ≤ t) (htm : t ≠ missing) (hd : d ≠ some missing)
    (hp : 0 ≤ p) :
    t + 273.15 ≤ virtualTemperature realCalc t (marked missing d) p missing ∧
      (mixingRatio realCalc (marked missing d) p missing ≠ missing → 0 ≤ mixingRatio realCalc (marked missing d) p missing) := by
  have hp' : ∀ x, some p = some x → 0 ≤ x := fun x h => Option.some.inj h ▸ hp
  constructor
  · have h := (C47_virtual missing hm (some t) d (some p) (fun x h => Option.some.inj h ▸ ⟨ht, htm⟩) hd hp').1
    have h' : virtualTemperature realCalc t (marked missing d) p missing = marked missing (virtualTemp (some t) d (some p)) := h
    rw [h']
    obtain ⟨v, hv⟩ : ∃ v, virtualTemp (some t) d (some p) = some v := by
      cases hx : mixing d (some p) with
      | none => exact ⟨_, virtualTemp_dry hx⟩
      | some r => exact ⟨_, virtualTemp_moist hx⟩
    rw [hv]
    exact C48_virtual t d (some p) ht hp' v hv
  · intro hne
    have h := (C47_mixing missing hm d (some p) hd hp').1
    have h' : mixingRatio realCalc (marked missing d) p missing = marked missing (mixing d (some p)) := h
    rw [h'] at hne ⊢
    cases hx : mixing d (some p) with
    | none => rw [hx] at hne; exact absurd rfl hne
    | some r => exact C48_mixing d (some p) hp' r hx

/-- C47: the scale height is missing exactly when a temperature or pressure is; a missing dew point only means dry air. -/
theorem C47_scale (missing : ℝ) (hm : missing < 0) (tb tt db dt pb pt : Option ℝ)
    (htb : ∀ x, tb = some x → -273.15 ≤ x ∧ x ≠ missing) (htt : ∀ x, tt = some x → -273.15 ≤ x ∧ x ≠ missing)
    (hdb : db ≠ some missing) (hdt : dt ≠ some missing) (hpb : ∀ x, pb = some x → 0 ≤ x) (hpt : ∀ x, pt = some x → 0 ≤ x) :
    scaleHeight realCalc (marked missing tb) (marked missing tt) (marked missing db) (marked missing dt) (marked missing pb)
        (marked missing pt) missing = marked missing (scale tb tt db dt pb pt) ∧
      (scale tb tt db dt pb pt = none ↔ tb = none ∨ tt = none ∨ pb = none ∨ pt = none) := by
  have neg : ∀ (o : Option ℝ), (∀ x, o = some x → 0 ≤ x) → (marked missing o = missing ↔ o = none) := by
    intro o ho
    cases o with
    | none => exact ⟨fun _ => rfl, fun _ => rfl⟩
    | some x =>
      refine ⟨fun e => ?_, fun e => by cases e⟩
      have := ho x rfl
      rw [show x = missing from e] at this
      linarith
  have neg' : ∀ (o : Option ℝ), (∀ x, o = some x → -273.15 ≤ x ∧ x ≠ missing) → (marked missing o = missing ↔ o = none) := by
    intro o ho
    cases o with
    | none => exact ⟨fun _ => rfl, fun _ => rfl⟩
    | some x => exact ⟨fun e => absurd e (ho x rfl).2, fun e => by cases e⟩
  have hvb := C47_virtual missing hm tb db pb htb hdb hpb
  have hvt := C47_virtual missing hm tt dt pt htt hdt hpt
  have vnone : ∀ (t d p : Option ℝ), virtualTemp t d p = none ↔ t = none ∨ p = none := by
    intro t d p
    match t, p with
    | none, p => cases d <;> cases p <;> simp [virtualTemp]
    | some t, none => cases d <;> simp [virtualTemp]
    | some t, some p =>
      cases hx : mixing d (some p) with
      | none => rw [virtualTemp_dry hx]; simp
      | some r => rw [virtualTemp_moist hx]; simp
  have hnone : scale tb tt db dt pb pt = none ↔ tb = none ∨ tt = none ∨ pb = none ∨ pt = none := by
    have h1 := vnone tb db pb
    have h2 := vnone tt dt pt
    unfold scale
    cases e1 : virtualTemp tb db pb with
    | none =>
      rw [e1] at h1
      exact ⟨fun _ => (h1.mp rfl).elim Or.inl (fun h => Or.inr (Or.inr (Or.inl h))), fun _ => rfl⟩
    | some a =>
      rw [e1] at h1
      cases e2 : virtualTemp tt dt pt with
      | none =>
        rw [e2] at h2
        exact ⟨fun _ => (h2.mp rfl).elim (fun h => Or.inr (Or.inl h)) (fun h => Or.inr (Or.inr (Or.inr h))), fun _ => rfl⟩
      | some b =>
        rw [e2] at h2
        refine ⟨fun h => (Option.some_ne_none _ h).elim, fun h => ?_⟩
        rcases h with h | h | h | h
        · exact absurd (h1.mpr (Or.inl h)) (by simp)
        · exact absurd (h2.mpr (Or.inl h)) (by simp)
        · exact absurd (h1.mpr (Or.inr h)) (by simp)
        · exact absurd (h2.mpr (Or.inr h)) (by simp)
  refine ⟨?_, hnone⟩
  unfold scaleHeight
  by_cases hc : tb = none ∨ tt = none ∨ pb = none ∨ pt = none
  · rw [if_pos, hnone.mpr hc]
    · rfl
    · rw [neg' tb htb, neg' tt htt, neg pb hpb, neg pt hpt]; exact hc
  · rw [if_neg (by rw [neg' tb htb, neg' tt htt, neg pb hpb, neg pt hpt]; exact hc)]
    push Not at hc
    dsimp only
    rw [hvb.1, hvt.1]
    unfold scale
    cases e1 : virtualTemp tb db pb with
    | none => rcases (vnone tb db pb).mp e1 with h | h <;> simp [h] at hc
    | some a =>
      cases e2 : virtualTemp tt dt pt with
      | none => rcases (vnone tt dt pt).mp e2 with h | h <;> simp [h] at hc
      | some b =>
        have g1 : marked missing (some a) ≠ missing := fun e => hvb.2 (by rw [e1, ← e]; rfl)
        have g2 : marked missing (some b) ≠ missing := fun e => hvt.2 (by rw [e2, ← e]; rfl)
        rw [if_neg (by rintro (h | h) <;> contradiction)]
        show rdOverG * ((a + b) * (5 / 10)) = _
        unfold rdOverG
        simp only [marked, Option.getD_some]
        norm_num
        ring

/-- C47: the height is missing when an input is missing or a pressure is not positive, and the hydrostatic value otherwise. -/
theorem C47_height (missing : ℝ) (z pb pt h : Option ℝ) (hz : z ≠ some missing) (hpb : pb ≠ some missing) (hpt : pt ≠ some missing)
    (hh : h ≠ some missing) :
    moistHydrostaticHeight realCalc (marked missing z) (marked missing pb) (marked missing pt) (marked missing h) missing =
      marked missing (height z pb pt h) := by
  have key : ∀ o : Option ℝ, o ≠ some missing → (marked missing o = missing ↔ o = none) := by
    intro o ho
    cases o with
    | none => exact ⟨fun _ => rfl, fun _ => rfl⟩
    | some x => exact ⟨fun e => absurd (by rw [← show x = missing from e]) ho, fun e => by cases e⟩
  unfold moistHydrostaticHeight
  by_cases hc : z = none ∨ pb = none ∨ pt = none ∨ h = none
  · rw [if_pos (Or.inl (by rw [key z hz, key pb hpb, key pt hpt, key h hh]; exact hc))]
    rcases hc with rfl | rfl | rfl | rfl
    · cases pb <;> cases pt <;> cases h <;> rfl
    · cases z <;> cases pt <;> cases h <;> rfl
    · cases z <;> cases pb <;> cases h <;> rfl
    · cases z <;> cases pb <;> cases pt <;> rfl
  · push Not at hc
    match z, pb, pt, h with
    | some z, some pb, some pt, some h =>
      rw [height_some]
      by_cases hp : 0 < pb ∧ 0 < pt
      · rw [if_pos hp, if_neg]
        · show z + h * Real.log (pb / pt) = _
          rw [Real.log_div hp.1.ne' hp.2.ne']
          rfl
        · rw [key _ hz, key _ hpb, key _ hpt, key _ hh]
          rintro (h | h | h)
          · simp at h
          · exact absurd hp.1 (not_lt.mpr h)
          · exact absurd hp.2 (not_lt.mpr h)
      · rw [if_neg hp, if_pos]
        · rfl
        · right
          rw [not_and_or, not_lt, not_lt] at hp
          exact hp
    | none, _, _, _ => simp at hc
    | some _, none, _, _ => simp at hc
    | some _, some _, none, _ => simp at hc
    | some _, some _, some _, none => simp at hc

/-- A level with everything present and one without dew point. -/
example : (0 : ℝ) + 273.15 ≤ virtualTemperature realCalc 0 (marked (-9999) (some (-5))) 1000 (-9999) ∧
    virtualTemperature realCalc 0 (marked (-9999) none) 1000 (-9999) = 273.15 := by
  refine ⟨(C48_code (-9999) 0 1000 (by norm_num) (some (-5)) (by norm_num) (by norm_num) (by norm_num) (by norm_num)).1, ?_⟩
  have h := (C47_virtual (-9999) (by norm_num) (some 0) none (some 1000)
    (fun x h => Option.some.inj h ▸ ⟨by norm_num, by norm_num⟩) (by simp) (fun x h => Option.some.inj h ▸ by norm_num)).1
  have h' : virtualTemperature realCalc 0 (marked (-9999) none) 1000 (-9999) =
    marked (-9999) (virtualTemp (some 0) none (some 1000)) := h
  rw [h']
  simp [virtualTemp, mixing, marked]

end Gempak
