import Verif.Proof.Merge

/-!
# C52: merging the parts of a sounding
-/

namespace Gempak

open Spec

section
variable {α : Type} [Field α] [LinearOrder α] [FloorRing α]

/-- C52: when the mandatory temperature parts have exactly the six columns, every merged sounding has columns of one length.
Missing: parts with other columns, see `C52_counterexample`. -/
theorem C52_columns_partial (c : Calc α) (m : α) (fuel : Nat) (ps : SndParts α) (s : Snd α)
    (hA : ∀ p, ps.part "TTAA" = some p → SixNames p) (hC : ∀ p, ps.part "TTCC" = some p → SixNames p)
    (h : mergeSounding c m fuel ps = .ok (some s)) :
    ∃ n, s.pres.length = n ∧ s.hght.length = n ∧ s.temp.length = n ∧ s.dwpt.length = n ∧ s.drct.length = n ∧ s.sped.length = n := by
  unfold mergeSounding at h
  obtain ⟨n, _, h⟩ := run_inv h
  split at h
  · cases h
  · obtain ⟨b, _, h⟩ := run_inv h
    obtain ⟨d, _, h⟩ := run_inv h
    obtain ⟨r, hr, h⟩ := run_inv h
    obtain ⟨s1, h1, h⟩ := run_inv h
    obtain ⟨s2, h2, h⟩ := run_inv h
    have e : s2 = s := Option.some.inj (Except.ok.inj h)
    rw [← e]
    obtain ⟨k, hk⟩ := mergeRest_same (mergeLevels_same (mergeMandatory_same hA hC hr) h1) h2
    exact ⟨k, hk.pres, hk.hght, hk.temp, hk.dwpt, hk.drct, hk.sped⟩

/-- C52: nothing is returned exactly when no part has a level. -/
theorem C52_none (c : Calc α) (m : α) (fuel : Nat) (ps : SndParts α) (n : Counts) (hn : ps.counts = .ok n) :
    mergeSounding c m fuel ps = .ok none ↔ n.total = 0 := by
  unfold mergeSounding
  rw [hn, ok_bind]
  constructor
  · intro h
    by_contra hc
    rw [if_neg hc] at h
    obtain ⟨b, _, h⟩ := run_inv h
    obtain ⟨d, _, h⟩ := run_inv h
    obtain ⟨r, hr, h⟩ := run_inv h
    obtain ⟨s1, h1, h⟩ := run_inv h
    obtain ⟨s2, h2, h⟩ := run_inv h
    cases h
  · intro h; rw [if_pos h]

end

/-- Upper mandatory levels without winds. -/
def noWinds : SndParts ℚ :=
  ⟨0, fun x => if x = "TTCC" then some [("PRES", [70]), ("TEMP", [-60]), ("DWPT", [-80]), ("HGHT", [18000])] else none⟩

/-- C52: upper mandatory levels without winds give columns of different lengths. -/
theorem C52_counterexample : mergeSounding ⟨fun x => x - 1, fun x => x + 1⟩ (-9999) 5 noWinds =
    .ok (some ⟨[-9999, 70], [-9999, 18000], [-9999, -60], [-9999, -80], [-9999], [-9999]⟩) := by
  decide +kernel

/-- Two mandatory levels and one significant temperature between them. -/
def mergeSample : SndParts ℚ :=
  ⟨100, fun x =>
    if x = "TTAA" then some [("PRES", [1000, 850]), ("TEMP", [20, 10]), ("DWPT", [15, 5]), ("DRCT", [90, 180]), ("SPED", [5, 10]), ("HGHT", [100, 1500])]
    else if x = "TTBB" then some [("PRES", [1000, 900]), ("TEMP", [20, 12]), ("DWPT", [15, 6])]
    else none⟩

example : (∃ s, mergeSounding ⟨fun x => x - 1, fun x => x + 1⟩ (-9999) 5 mergeSample = .ok (some s) ∧ s.pres = [1000, 900, 850]) ∧
    (∀ p, mergeSample.part "TTAA" = some p → SixNames p) ∧ (∀ p, mergeSample.part "TTCC" = some p → SixNames p) := by
  refine ⟨?_, ?_, ?_⟩
  · have h : (mergeSounding ⟨fun x => x - 1, fun x => x + 1⟩ (-9999) 5 mergeSample).toOption.bind (fun o => o.map Snd.pres) = some [1000, 900, 850] := by
      decide +kernel
    revert h
    cases mergeSounding ⟨fun x => x - 1, fun x => x + 1⟩ (-9999) 5 mergeSample with
    | error e => intro h; cases h
    | ok o =>
      cases o with
      | none => intro h; cases h
      | some s => intro h; exact ⟨s, rfl, Option.some.inj h⟩
  · intro p hp
    obtain rfl := Option.some.inj hp
    unfold SixNames; decide
  · intro p hp; cases hp

end Gempak
