import Verif.Props.MergeManWind
import Verif.Props.MergeSig

/-!
# C101: soundings without a surface pressure
-/

namespace Gempak

set_option linter.unusedSectionVars false

open Spec

section
variable {α : Type} [Field α] [LinearOrder α]

/-- No surface pressure is reported. -/
def Spec.NoSurface (ps : SndParts α) (m : α) : Prop := ∀ x, SurfaceAt ps m x → x = m

/-- A tropopause is reported, and the lower part does not have two of them. -/
def Spec.OneTropopause (ps : SndParts α) : Prop :=
  (∃ name p x, (name = "TRPA" ∨ name = "TRPC") ∧ ps.part name = some p ∧ p.at "PRES" 0 = .ok x) ∧
    ∀ p x, ps.part "TRPA" = some p → p.at "PRES" 1 ≠ .ok x

/-- C101: a report without surface pressure, with a mandatory level to be taken and with one tropopause cannot be merged: no sounding is given. -/
theorem C101_tropopause [FloorRing α] (c : Calc α) (m : α) (fuel : Nat) (ps : SndParts α)
    (hA : ∀ p, ps.part "TTAA" = some p → SixNames p) (hC : ∀ p, ps.part "TTCC" = some p → SixNames p)
    (P Z T D R W : α) (ht : Taken ps m P Z T) (hl : MandatoryLevel ps m P Z T D R W) (hs : NoSurface ps m) (h1 : OneTropopause ps) (s : Snd α) :
    mergeSounding c m fuel ps ≠ .ok (some s) := by
  intro h
  obtain ⟨n, b, d, r, s1, s2, s3, s4, s5, s6, st⟩ := merge_stages h
  obtain ⟨s5', s6', j, p0, plast, row, hp0, hsf, tail, h6, h7⟩ := mandatory_levels st.counts st.lower hA hC st.man ht hl
  obtain rfl : p0 = m := by
    rcases hsf with e | e
    · exact e
    · exact hs p0 e
  have epres : r.1.pres = s5'.pres := (manWinds_pres h7).trans (manWinds_pres h6)
  obtain ⟨t, a1, _⟩ := tail
  have ht1 : t ≠ [] := by
    rintro rfl
    have := row.pres
    rw [a1] at this
    cases j with
    | zero => exact hp0 (Option.some.inj this).symm
    | succ j => cases this
  obtain ⟨⟨name, p, x, hname, hp, hx⟩, hno⟩ := h1
  obtain ⟨c1, _, _, _, c2, _⟩ := counts_each st.counts
  have hpos : 1 ≤ n.trop ∨ 1 ≤ n.aTrop := by
    rcases hname with rfl | rfl
    · exact Or.inl (count_level c1 hp hx)
    · exact Or.inr (count_level c2 hp hx)
  have e := st.trop
  unfold mergePair at e
  rw [if_pos hpos] at e
  obtain ⟨pbot, hb, _⟩ := run_inv e
  unfold bottomOf at hb
  obtain ⟨q0, hq0, hb⟩ := run_inv hb
  have eq0 := idx_val p0 hq0
  rw [epres, a1] at eq0
  have eq0 : q0 = p0 := eq0
  rw [if_neg (by rw [eq0]; exact fun h => h rfl), if_pos (by
    rw [epres, a1, List.length_cons]
    have := List.length_pos_iff.2 ht1
    omega)] at hb
  obtain ⟨p1, _, hb⟩ := run_inv hb
  obtain ⟨q, hq, hb⟩ := run_inv hb
  obtain ⟨y, hy, _⟩ := run_inv hb
  exact hno q y (get_part hq) hy

end

/-- A report without surface pressure and with one tropopause. -/
def oneTrop : SndParts ℚ :=
  ⟨100, fun x =>
    if x = "TTAA" then some [("PRES", [-9999, 850, 500]), ("TEMP", [20, 10, -10]), ("DWPT", [15, 5, -20]), ("DRCT", [90, 180, 200]), ("SPED", [5, 10, 20]),
      ("HGHT", [100, 1500, 5500])]
    else if x = "TRPA" then some [("PRES", [200]), ("TEMP", [-60]), ("DWPT", [-70]), ("DRCT", [200]), ("SPED", [20])]
    else none⟩

/-- It meets the hypotheses; the exception is an `IndexError`. -/
example : Taken oneTrop (-9999) 850 1500 10 ∧ MandatoryLevel oneTrop (-9999) 850 1500 10 5 180 10 ∧ NoSurface oneTrop (-9999) ∧ OneTropopause oneTrop ∧
    mergeSounding ⟨fun x => x - 1, fun x => x + 1⟩ (-9999) 5 oneTrop = .error (.raised .indexError) := by
  have hs : ∀ x, SurfaceAt oneTrop (-9999) x → x = -9999 := by
    intro x hx
    cases hx with
    | man hp h =>
      obtain rfl := Option.some.inj hp
      exact (Except.ok.inj h).symm
    | sigT hp h => cases hp
    | sigW hp h => cases hp
    | sigZ hp _ h => cases hp
  refine ⟨⟨by norm_num, by norm_num, by norm_num, by norm_num, fun x hx h => absurd (hs x hx) h⟩,
    Or.inl ⟨_, 1, rfl, le_refl _, ⟨by decide +kernel, by decide +kernel, by decide +kernel, by decide +kernel, by decide +kernel, by decide +kernel⟩,
    fun j x h1 h2 => by omega⟩, hs, ⟨⟨"TRPA", _, 200, Or.inl rfl, rfl, by decide +kernel⟩, fun p x hp h => ?_⟩, by decide +kernel⟩
  obtain rfl := Option.some.inj hp
  cases h

/-- Without the tropopause it can be merged. -/
example : (mergeSounding ⟨fun x => x - 1, fun x => x + 1⟩ (-9999) 5 { oneTrop with part := fun x => if x = "TRPA" then none else oneTrop.part x }).toOption.bind
    (fun o => o.map fun s => (s.pres, s.temp)) = some ([-9999, 850, 500], [-9999, 10, -10]) := by decide +kernel

/-- A report without surface pressure, with significant temperatures below the first mandatory level. -/
def noSurface : SndParts ℚ :=
  ⟨100, fun x =>
    if x = "TTAA" then some [("PRES", [-9999, 850, 500]), ("TEMP", [20, 10, -10]), ("DWPT", [15, 5, -20]), ("DRCT", [90, 180, 200]), ("SPED", [5, 10, 20]),
      ("HGHT", [100, 1500, 5500])]
    else if x = "TTBB" then some [("PRES", [-9999, 900]), ("TEMP", [-9999, 12]), ("DWPT", [-9999, 6])]
    else none⟩

/-- C101: without surface pressure a significant level below the first mandatory level is put before the surface level; values are then looked for
between levels that do not enclose it, and `ValueError` is raised. -/
theorem C101_significant : NoSurface noSurface (-9999) ∧
    mergeSounding ⟨fun x => x - 1, fun x => x + 1⟩ (-9999) 5 noSurface = .error (.raised .valueError) := by
  refine ⟨fun x hx => ?_, by decide +kernel⟩
  cases hx with
  | man hp h =>
    obtain rfl := Option.some.inj hp
    exact (Except.ok.inj h).symm
  | sigT hp h =>
    obtain rfl := Option.some.inj hp
    exact (Except.ok.inj h).symm
  | sigW hp h => cases hp
  | sigZ hp _ h => cases hp

end Gempak
