import Verif.Proof.GridHead
import Verif.Model.Station

/-!
# Hours later and earlier
-/

namespace Gempak

theorem daysInMonth_bounds (y m : Nat) : 1 ≤ daysInMonth y m ∧ daysInMonth y m ≤ 31 := by
  unfold daysInMonth
  split
  · split <;> omega
  · split <;> omega

theorem ordinal_last : Date.ordinal ⟨9999, 12, 31⟩ = 3652059 := by decide +kernel

theorem next_exists {x : Date} (h : x.Valid) (hx : x.ordinal < 3652059) : x.next.Valid ∧ x.next.ordinal = x.ordinal + 1 := by
  by_cases hy : x.y ≤ 9998
  · exact ⟨(next_valid h hy).1, (next_valid h hy).2.1⟩
  obtain ⟨y, m, d⟩ := x
  obtain ⟨h1, h2, h3, h4, h5, h6⟩ := h
  dsimp only at *
  obtain rfl : y = 9999 := by omega
  unfold Date.next
  dsimp only
  by_cases hd : d < daysInMonth 9999 m
  · rw [if_pos hd]
    refine ⟨⟨h1, h2, h3, h4, by dsimp only; omega, by dsimp only; omega⟩, ?_⟩
    rw [ordinal_eq, ordinal_eq]; dsimp only; omega
  · rw [if_neg hd]
    have hd' : d = daysInMonth 9999 m := by omega
    by_cases hm : m < 12
    · rw [if_pos hm]
      refine ⟨⟨h1, h2, by dsimp only; omega, by dsimp only; omega, le_refl _, (daysInMonth_bounds _ _).1⟩, ?_⟩
      rw [ordinal_eq, ordinal_eq]
      dsimp only
      rw [daysBeforeMonth_succ _ _ h3, hd']; omega
    · obtain rfl : m = 12 := by omega
      rw [hd', show daysInMonth 9999 12 = 31 from rfl, ordinal_last] at hx
      omega

theorem prev_exists {x : Date} (h : x.Valid) (hx : 1 < x.ordinal) : x.prev.Valid ∧ x.prev.ordinal + 1 = x.ordinal := by
  obtain ⟨y, m, d⟩ := x
  obtain ⟨h1, h2, h3, h4, h5, h6⟩ := h
  dsimp only at *
  unfold Date.prev
  dsimp only
  by_cases hd : 1 < d
  · rw [if_pos hd]
    refine ⟨⟨h1, h2, h3, h4, by dsimp only; omega, by dsimp only; omega⟩, ?_⟩
    rw [ordinal_eq, ordinal_eq]; dsimp only; omega
  · rw [if_neg hd]
    obtain rfl : d = 1 := by omega
    by_cases hm : 1 < m
    · rw [if_pos hm]
      refine ⟨⟨h1, h2, by dsimp only; omega, by dsimp only; omega, (daysInMonth_bounds _ _).1, le_refl _⟩, ?_⟩
      rw [ordinal_eq, ordinal_eq]
      dsimp only
      obtain ⟨k, rfl⟩ : ∃ k, m = k + 1 := ⟨m - 1, by omega⟩
      rw [daysBeforeMonth_succ _ _ (by omega), Nat.add_sub_cancel]; omega
    · obtain rfl : m = 1 := by omega
      have hy : 1 < y := by
        by_contra hc
        obtain rfl : y = 1 := by omega
        revert hx; decide
      rw [if_neg hm]
      obtain ⟨k, rfl⟩ : ∃ k, y = k + 1 := ⟨y - 1, by omega⟩
      refine ⟨⟨by dsimp only; omega, by dsimp only; omega, by dsimp only; omega, by dsimp only; omega, by dsimp only; omega, le_refl _⟩, ?_⟩
      rw [ordinal_eq, ordinal_eq]
      dsimp only
      rw [Nat.add_sub_cancel]
      have h13 : daysBeforeMonth k 13 = _ := daysBeforeMonth_succ k 12 (by omega)
      have h13' := daysBeforeMonth_13 k
      have h31 : daysInMonth k 12 = 31 := rfl
      have h01 : daysBeforeMonth (k + 1) 1 = 0 := rfl
      rw [yearStart_succ _ (by omega), h01]
      omega

theorem addDays_exists (n : Nat) : ∀ {x : Date}, x.Valid → x.ordinal + n ≤ 3652059 →
    (x.addDays n).Valid ∧ (x.addDays n).ordinal = x.ordinal + n := by
  induction n with
  | zero => intro x h _; exact ⟨h, rfl⟩
  | succ n ih =>
    intro x h hy
    obtain ⟨h1, h2⟩ := next_exists h (by omega)
    obtain ⟨h4, h5⟩ := ih h1 (by omega)
    refine ⟨h4, ?_⟩
    show (x.next.addDays n).ordinal = _
    rw [h5, h2]; omega

theorem subDays_exists (n : Nat) : ∀ {x : Date}, x.Valid → n < x.ordinal →
    (x.subDays n).Valid ∧ (x.subDays n).ordinal + n = x.ordinal := by
  induction n with
  | zero => intro x h _; exact ⟨h, rfl⟩
  | succ n ih =>
    intro x h hy
    obtain ⟨h1, h2⟩ := prev_exists h (by omega)
    obtain ⟨h4, h5⟩ := ih h1 (by omega)
    refine ⟨h4, ?_⟩
    show (x.prev.subDays n).ordinal + _ = _
    omega

/-- Microseconds of the day. -/
theorem instant_clock (d : Date) (c : Clock) :
    instant (d, c) = d.ordinal * 86400000000 + (((c.h * 60 + c.mi) * 60 + c.s) * 1000000 + c.us : Nat) := by
  unfold instant
  push_cast
  ring

theorem addHours_ok {t u : Date × Clock} {n : Int} (h1 : t.1.Valid) (h2 : t.2.Valid) (h : addHours t n = .ok u) :
    instant u = instant t + n * 3600000000 ∧ u.1.Valid ∧ u.2.Valid := by
  obtain ⟨d, c⟩ := t
  obtain ⟨c1, c2, c3, c4⟩ := h2
  unfold addHours at h
  dsimp only at *
  by_cases hr : (d.ordinal : Int) + (c.h + n) / 24 < 1 ∨ 3652059 < (d.ordinal : Int) + (c.h + n) / 24
  · rw [if_pos hr] at h; cases h
  rw [if_neg hr] at h
  obtain rfl := Except.ok.inj h
  have hday : (if 0 ≤ ((c.h : Int) + n) / 24 then d.addDays (((c.h : Int) + n) / 24).toNat else d.subDays (-(((c.h : Int) + n) / 24)).toNat).Valid ∧
      ((if 0 ≤ ((c.h : Int) + n) / 24 then d.addDays (((c.h : Int) + n) / 24).toNat else d.subDays (-(((c.h : Int) + n) / 24)).toNat).ordinal : Int) =
        d.ordinal + ((c.h : Int) + n) / 24 := by
    split
    · obtain ⟨a1, a2⟩ := addDays_exists (((c.h : Int) + n) / 24).toNat h1 (by omega)
      exact ⟨a1, by rw [a2]; omega⟩
    · obtain ⟨a1, a2⟩ := subDays_exists (-(((c.h : Int) + n) / 24)).toNat h1 (by omega)
      exact ⟨a1, by omega⟩
  refine ⟨?_, hday.1, ?_, c2, c3, c4⟩
  · rw [instant_clock, instant_clock, hday.2]
    dsimp only
    push_cast
    have := Int.mul_ediv_add_emod (↑c.h + n) 24
    omega
  · dsimp only; omega

/-- Hours are added as long as the result is a time. -/
theorem addHours_some {t u : Date × Clock} {n : Int} (h1 : t.1.Valid) (h2 : t.2.Valid) (hu : u.1.Valid ∧ u.2.Valid)
    (h : instant u = instant t + n * 3600000000) : addHours t n = .ok u := by
  have hd : ∃ v, addHours t n = .ok v := by
    unfold addHours
    dsimp only
    rw [if_neg]
    · exact ⟨_, rfl⟩
    · obtain ⟨d, c⟩ := t
      obtain ⟨d', c'⟩ := u
      rw [instant_clock, instant_clock] at h
      obtain ⟨⟨v1, v2, v3, v4, v5, v6⟩, w1, w2, w3, w4⟩ := hu
      obtain ⟨c1, c2, c3, c4⟩ := h2
      dsimp only at *
      have hlast : d'.ordinal ≤ 3652059 := by
        rcases Classical.em (d' = ⟨9999, 12, 31⟩) with rfl | hne
        · exact le_of_eq ordinal_last
        · have := ordinal_lt (a := d') (b := ⟨9999, 12, 31⟩) ⟨v1, v2, v3, v4, v5, v6⟩ (by decide) (by
            obtain ⟨y, m, d⟩ := d'
            dsimp only at *
            have hb := (daysInMonth_bounds y m).2
            by_contra hc
            have : y = 9999 ∧ m = 12 ∧ d = 31 := by omega
            obtain ⟨rfl, rfl, rfl⟩ := this
            exact hne rfl)
          rw [ordinal_last] at this
          omega
      have hfirst : 1 ≤ d'.ordinal := by rw [ordinal_eq]; omega
      push_cast at h
      omega
  obtain ⟨v, hv⟩ := hd
  obtain ⟨a1, a2⟩ := addHours_ok h1 h2 hv
  rw [hv, instant_inj a2 hu (a1.trans h.symm)]

end Gempak
