import Mathlib.Tactic.IntervalCases
import Verif.Model.Calendar

/-!
# C22–C24: date, time and forecast words
-/

namespace Gempak

/-- The year `%y` gives back: same year in 1969–2068, otherwise the year of that window with the same last two digits. -/
def Spec.windowYear (y : Nat) : Nat := 1969 + (y + 31) % 100

theorem pivotYear_eq (y : Nat) : pivotYear (y % 100) = Spec.windowYear y := by
  unfold pivotYear Spec.windowYear; split <;> omega

theorem windowYear_same {y : Nat} (h1 : 1969 ≤ y) (h2 : y ≤ 2068) : Spec.windowYear y = y := by
  unfold Spec.windowYear; omega

theorem isLeap_iff (y : Nat) : isLeap y = true ↔ y % 4 = 0 ∧ (y % 100 ≠ 0 ∨ y % 400 = 0) := by
  unfold isLeap; simp

theorem isLeap_window {y : Nat} (h : isLeap y = true) : isLeap (Spec.windowYear y) = true := by
  rw [isLeap_iff] at *
  unfold Spec.windowYear
  by_cases h0 : y % 100 = 0 <;> omega

theorem daysInMonth_window (y m : Nat) : daysInMonth y m ≤ daysInMonth (Spec.windowYear y) m := by
  unfold daysInMonth
  split
  · by_cases h : isLeap y = true
    · rw [if_pos h, if_pos (isLeap_window h)]
    · rw [if_neg h]; split <;> omega
  · exact Nat.le_refl _

theorem daysInMonth_le (y m : Nat) : daysInMonth y m ≤ 31 := by
  unfold daysInMonth
  split
  · split <;> omega
  · split <;> omega

theorem valid_window {x : Date} (h : x.Valid) : Date.Valid ⟨Spec.windowYear x.y, x.m, x.d⟩ := by
  obtain ⟨h1, h2, h3, h4, h5, h6⟩ := h
  have := daysInMonth_window x.y x.m
  refine ⟨?_, ?_, h3, h4, h5, by dsimp only; omega⟩ <;> (dsimp only [Spec.windowYear]; omega)

/-- C22: a date written in a header comes back with the same month and day, in the window 1969–2068. -/
theorem C22_date (x : Date) (h : x.Valid) : makeDate (dateWord x) = .ok ⟨Spec.windowYear x.y, x.m, x.d⟩ := by
  have hv := valid_window h
  obtain ⟨h1, h2, h3, h4, h5, h6⟩ := h
  have h7 := daysInMonth_le x.y x.m
  unfold makeDate convertDattim dateWord
  rw [if_neg (by omega), if_pos (by omega)]
  unfold parseYmd mkDate
  rw [if_neg (by omega)]
  simp only [Int.toNat_natCast]
  rw [show (x.y % 100 * 10000 + x.m * 100 + x.d) / 10000 = x.y % 100 by omega,
    show (x.y % 100 * 10000 + x.m * 100 + x.d) / 100 % 100 = x.m by omega,
    show (x.y % 100 * 10000 + x.m * 100 + x.d) % 100 = x.d by omega, pivotYear_eq, if_pos hv]
  rfl

/-- C22: dates of the window come back unchanged. -/
theorem C22_date_same (x : Date) (h : x.Valid) (h1 : 1969 ≤ x.y) (h2 : x.y ≤ 2068) : makeDate (dateWord x) = .ok x := by
  rw [C22_date x h, windowYear_same h1 h2]

/-- C22: other dates come back off by a positive multiple of a hundred years. -/
theorem C22_date_off (x : Date) (h : x.Valid) (ho : x.y < 1969 ∨ 2068 < x.y) :
    ∃ y', makeDate (dateWord x) = .ok ⟨y', x.m, x.d⟩ ∧ y' % 100 = x.y % 100 ∧ y' ≠ x.y := by
  refine ⟨_, C22_date x h, ?_, ?_⟩ <;> (unfold Spec.windowYear; omega)

/-- C22: a time comes back with the same hour and minute; seconds are lost. -/
theorem C22_time (c : Clock) (h : c.Valid) : makeTime (timeWord c) = .ok ⟨c.h, c.mi, 0, 0⟩ := by
  obtain ⟨h1, h2, _, _⟩ := h
  unfold makeTime timeWord mkClock
  rw [if_neg (by omega)]
  simp only [Int.toNat_natCast]
  rw [show (c.h * 100 + c.mi) / 100 = c.h by omega, show (c.h * 100 + c.mi) % 100 = c.mi by omega, if_pos ⟨h1, h2⟩]

example : Date.Valid ⟨2024, 2, 29⟩ ∧ Clock.Valid ⟨23, 59, 59, 1⟩ := by decide

/-- C22: exactly the words hundred times hour plus minute are times. -/
theorem C22_time_words (w : Int) (c : Clock) : makeTime w = .ok c ↔ c.h < 24 ∧ c.mi < 60 ∧ c = ⟨c.h, c.mi, 0, 0⟩ ∧ w = 100 * c.h + c.mi := by
  unfold makeTime mkClock
  constructor
  · intro h
    split at h
    · cases h
    · split at h
      · obtain rfl := Except.ok.inj h
        refine ⟨by dsimp only; omega, by dsimp only; omega, rfl, ?_⟩
        dsimp only
        omega
      · cases h
  · rintro ⟨h1, h2, h3, rfl⟩
    rw [if_neg (by omega), show (100 * (c.h : Int) + c.mi).toNat / 100 = c.h by omega, show (100 * (c.h : Int) + c.mi).toNat % 100 = c.mi by omega,
      if_pos ⟨h1, h2⟩, ← h3]

example : makeTime 2359 = .ok ⟨23, 59, 0, 0⟩ ∧ makeTime 12345 = .error .valueError := by decide

/-- C22: whatever word a header holds, a date that is returned exists and lies in the window. -/
theorem C22_reads_valid (w : Int) (x : Date) : makeDate w = .ok x → x.Valid ∧ 1969 ≤ x.y ∧ x.y ≤ 2068 := by
  intro h
  unfold makeDate convertDattim at h
  have key : ∀ yy m d : Nat, yy < 100 → ∀ x', mkDate (pivotYear yy) m d = .ok x' → x'.Valid ∧ 1969 ≤ x'.y ∧ x'.y ≤ 2068 := by
    intro yy m d hy x' hx
    unfold mkDate at hx
    split at hx
    · rename_i hv
      injection hx with hx
      subst hx
      refine ⟨hv, ?_⟩
      dsimp only
      unfold pivotYear
      split <;> omega
    · cases hx
  by_cases h0 : w = 0
  · rw [if_pos h0] at h; cases h
  rw [if_neg h0] at h
  by_cases h1 : w < 100000000
  · rw [if_pos h1] at h
    unfold parseYmd at h
    by_cases h2 : w < 0 ∨ 1000000 ≤ w
    · rw [if_pos h2] at h; cases h
    rw [if_neg h2] at h
    cases hd : mkDate (pivotYear (w.toNat / 10000)) (w.toNat / 100 % 100) (w.toNat % 100) with
    | error e => rw [hd] at h; cases h
    | ok x' =>
      rw [hd] at h
      have : x' = x := by injection h
      subst this
      exact key _ _ _ (by omega) _ hd
  · rw [if_neg h1] at h
    unfold parseMdyhm at h
    by_cases h2 : 10000000000 ≤ w
    · rw [if_pos h2] at h; cases h
    rw [if_neg h2] at h
    cases hd : mkDate (pivotYear (w.toNat / 10000 % 100)) (w.toNat / 100000000) (w.toNat / 1000000 % 100) with
    | error e => rw [hd] at h; cases h
    | ok x' =>
      rw [hd] at h
      cases hc : mkClock (w.toNat / 100 % 100) (w.toNat % 100) with
      | error e => rw [hc] at h; cases h
      | ok c =>
        rw [hc] at h
        have : x' = x := by injection h
        subst this
        exact key _ _ _ (by omega) _ hd

/-- C23: a date-time word of a grid header decodes to the same date, hour and minute. -/
theorem C23_grid_word (x : Date) (c : Clock) (h : x.Valid) (hc : c.Valid) :
    convertDattim (gridWord x c) = .ok (some (⟨Spec.windowYear x.y, x.m, x.d⟩, ⟨c.h, c.mi, 0, 0⟩)) := by
  have hv := valid_window h
  obtain ⟨h1, h2, h3, h4, h5, h6⟩ := h
  obtain ⟨c1, c2, _, _⟩ := hc
  have h7 := daysInMonth_le x.y x.m
  unfold convertDattim gridWord
  rw [if_neg (by omega), if_neg (by omega)]
  unfold parseMdyhm mkDate mkClock
  rw [if_neg (by omega)]
  simp only [Int.toNat_natCast]
  generalize hw : x.m * 100000000 + x.d * 1000000 + x.y % 100 * 10000 + c.h * 100 + c.mi = w
  rw [show w / 10000 % 100 = x.y % 100 by omega, show w / 100000000 = x.m by omega,
    show w / 1000000 % 100 = x.d by omega, show w / 100 % 100 = c.h by omega, show w % 100 = c.mi by omega,
    pivotYear_eq, if_pos hv, if_pos ⟨c1, c2⟩]
  rfl

/-- C23: unchanged within the window. -/
theorem C23_grid_word_same (x : Date) (c : Clock) (h : x.Valid) (hc : c.Valid) (h1 : 1969 ≤ x.y) (h2 : x.y ≤ 2068)
    (hs : c.s = 0) (hu : c.us = 0) : convertDattim (gridWord x c) = .ok (some (x, c)) := by
  obtain ⟨ch, cm, cs, cu⟩ := c
  dsimp only at hs hu
  subst hs hu
  rw [C23_grid_word x _ h hc, windowYear_same h1 h2]

/-- C23: the word fits 32 bits. -/
theorem C23_fits (x : Date) (c : Clock) (h : x.Valid) (hc : c.Valid) : inI32 (gridWord x c) := by
  obtain ⟨h1, h2, h3, h4, h5, h6⟩ := h
  obtain ⟨c1, c2, _, _⟩ := hc
  have h7 := daysInMonth_le x.y x.m
  unfold inI32 gridWord
  omega

/-- C24: type and lead time, as written by `ftype * 100000 + int(f'{hours:03d}{minutes:02d}')`, come back. -/
theorem C24_ftime (t hours minutes : Nat) (ht : t ≤ 3) (hh : hours < 1000) (hm : minutes < 60) :
    convertFtime (t * 100000 + (hours * 100 + minutes)) = .ok (some (t, hours * 60 + minutes)) := by
  unfold convertFtime
  rw [if_pos (by omega)]
  simp only
  have h1 : ((t : Int) * 100000 + (hours * 100 + minutes)) / 100000 = t := by omega
  rw [h1, if_pos (by omega)]
  have h2 : ((t : Int) * 100000 + (hours * 100 + minutes) - t * 100000) = hours * 100 + minutes := by omega
  rw [h2]
  have h3 : ((hours : Int) * 100 + minutes) / 100 = hours := by omega
  rw [h3]
  congr 3
  omega

/-- C24: type and lead time are determined by the word, hence no two header words of different type or lead agree. -/
theorem C24_ftime_inj (t hours minutes t' hours' minutes' : Nat) (hh : hours < 1000) (hm : minutes < 60)
    (hh' : hours' < 1000) (hm' : minutes' < 60)
    (h : (t : Int) * 100000 + (hours * 100 + minutes) = t' * 100000 + (hours' * 100 + minutes')) :
    t = t' ∧ hours = hours' ∧ minutes = minutes' := by omega

/-- Leap days and the last minute of a year meet the hypotheses of C23; twelve hours and thirty minutes of a forecast those of C24. -/
example : (⟨2024, 2, 29⟩ : Date).Valid ∧ (⟨1999, 12, 31⟩ : Date).Valid ∧ (⟨23, 59, 0, 0⟩ : Clock).Valid ∧
    convertDattim (gridWord ⟨1999, 12, 31⟩ ⟨23, 59, 0, 0⟩) = .ok (some (⟨1999, 12, 31⟩, ⟨23, 59, 0, 0⟩)) ∧
    convertFtime (1 * 100000 + (12 * 100 + 30)) = .ok (some (1, 750)) := by
  have h1 : (⟨1999, 12, 31⟩ : Date).Valid := by unfold Date.Valid; decide
  have h2 : (⟨23, 59, 0, 0⟩ : Clock).Valid := by unfold Clock.Valid; decide
  exact ⟨by unfold Date.Valid; decide, h1, h2, C23_grid_word_same _ _ h1 h2 (by decide) (by decide) rfl rfl, C24_ftime 1 12 30 (by decide) (by decide) (by decide)⟩

end Gempak
