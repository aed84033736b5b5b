import Mathlib.Tactic.IntervalCases
import Mathlib.Data.List.Lex
import Verif.Model.Surface

/-!
# Order of dates and times
-/

namespace Gempak

theorem _root_.List.lex_cons_iff' (a b : Nat) (l m : List Nat) : List.Lex (· < ·) (a :: l) (b :: m) ↔ a < b ∨ a = b ∧ List.Lex (· < ·) l m := by
  constructor
  · intro h
    cases h with
    | rel h => exact Or.inl h
    | cons h => exact Or.inr ⟨rfl, h⟩
  · rintro (h | ⟨rfl, h⟩)
    · exact .rel h
    · exact .cons h

theorem _root_.List.lex_nil_right (l : List Nat) : ¬ List.Lex (· < ·) l [] := by
  intro h; cases h

/-- First day of a year, counted from the beginning of the calendar. -/
def yearStart (y : Nat) : Nat := (y - 1) * 365 + (y - 1) / 4 - (y - 1) / 100 + (y - 1) / 400

theorem yearStart_succ (y : Nat) (hy : 1 ≤ y) : yearStart (y + 1) = yearStart y + 365 + if isLeap y then 1 else 0 := by
  have h : isLeap y = true ↔ y % 4 = 0 ∧ (y % 100 ≠ 0 ∨ y % 400 = 0) := by
    simp [isLeap]
  obtain ⟨n, rfl⟩ : ∃ n, y = n + 1 := ⟨y - 1, by omega⟩
  unfold yearStart
  simp only [Nat.add_sub_cancel]
  have h4 : (n + 1) / 4 = n / 4 + if (n + 1) % 4 = 0 then 1 else 0 := by split <;> omega
  have h100 : (n + 1) / 100 = n / 100 + if (n + 1) % 100 = 0 then 1 else 0 := by split <;> omega
  have h400 : (n + 1) / 400 = n / 400 + if (n + 1) % 400 = 0 then 1 else 0 := by split <;> omega
  have l1 : n / 100 ≤ n / 4 := by omega
  have m1 : (n + 1) % 100 = 0 → (n + 1) % 4 = 0 := by omega
  have m2 : (n + 1) % 400 = 0 → (n + 1) % 100 = 0 := by omega
  rw [h4, h100, h400]
  generalize n / 4 = a at *
  generalize n / 100 = b at *
  generalize n / 400 = c at *
  by_cases e4 : (n + 1) % 4 = 0 <;> by_cases e100 : (n + 1) % 100 = 0 <;> by_cases e400 : (n + 1) % 400 = 0 <;>
    simp only [e4, e100, e400, h, if_true, if_false, true_and, false_and, not_true, not_false_eq_true, true_or, false_or, ne_eq, or_false, or_true] <;> omega

theorem yearStart_mono {y y' : Nat} (hy : 1 ≤ y) (h : y < y') : yearStart y + 365 + (if isLeap y then 1 else 0) ≤ yearStart y' := by
  induction y', h using Nat.le_induction with
  | base => rw [yearStart_succ y hy]
  | succ n hn ih =>
    rw [yearStart_succ n (by omega)]
    omega

theorem daysBeforeMonth_succ (y m : Nat) (hm : 1 ≤ m) : daysBeforeMonth y (m + 1) = daysBeforeMonth y m + daysInMonth y m := by
  obtain ⟨k, rfl⟩ : ∃ k, m = k + 1 := ⟨m - 1, by omega⟩
  unfold daysBeforeMonth
  simp only [Nat.add_sub_cancel]
  rw [List.range_succ, List.map_append, List.sum_append]
  simp

theorem daysBeforeMonth_mono (y : Nat) {m m' : Nat} (hm : 1 ≤ m) (h : m < m') :
    daysBeforeMonth y m + daysInMonth y m ≤ daysBeforeMonth y m' := by
  induction m', h using Nat.le_induction with
  | base => rw [← daysBeforeMonth_succ y m hm]
  | succ n hn ih =>
    rw [daysBeforeMonth_succ y n (by omega)]
    omega

theorem daysBeforeMonth_13 (y : Nat) : daysBeforeMonth y 13 = 365 + if isLeap y then 1 else 0 := by
  unfold daysBeforeMonth daysInMonth
  cases isLeap y <;> rfl

theorem ordinal_eq (x : Date) : x.ordinal = yearStart x.y + daysBeforeMonth x.y x.m + x.d := rfl

theorem ordinal_lt {a b : Date} (ha : a.Valid) (hb : b.Valid) (h : a.y < b.y ∨ a.y = b.y ∧ (a.m < b.m ∨ a.m = b.m ∧ a.d < b.d)) :
    a.ordinal < b.ordinal := by
  obtain ⟨a1, a2, a3, a4, a5, a6⟩ := ha
  obtain ⟨b1, b2, b3, b4, b5, b6⟩ := hb
  rw [ordinal_eq, ordinal_eq]
  rcases h with h | ⟨h, h' | ⟨h', h''⟩⟩
  · have h1 := yearStart_mono a1 h
    have h2 := daysBeforeMonth_mono a.y a3 (by omega : a.m < 13)
    rw [daysBeforeMonth_13] at h2
    omega
  · rw [h] at a6 ⊢
    have := daysBeforeMonth_mono b.y a3 h'
    omega
  · rw [h, h']
    omega

theorem instant_lt {a b : Date × Clock} (ha : a.1.Valid ∧ a.2.Valid) (hb : b.1.Valid ∧ b.2.Valid) (h : timeLt a b = true) :
    instant a < instant b := by
  obtain ⟨ha, a1, a2, a3, a4⟩ := ha
  obtain ⟨hb, b1, b2, b3, b4⟩ := hb
  unfold timeLt at h
  simp only [decide_eq_true_eq, List.lex_cons_iff', List.lex_nil_right, or_false, and_false] at h
  have key : a.1.ordinal < b.1.ordinal ∨ a.1.ordinal = b.1.ordinal ∧ (a.2.h < b.2.h ∨ a.2.h = b.2.h ∧ (a.2.mi < b.2.mi ∨
      a.2.mi = b.2.mi ∧ (a.2.s < b.2.s ∨ a.2.s = b.2.s ∧ a.2.us < b.2.us))) := by
    by_cases h1 : a.1.y < b.1.y ∨ a.1.y = b.1.y ∧ (a.1.m < b.1.m ∨ a.1.m = b.1.m ∧ a.1.d < b.1.d)
    · exact Or.inl (ordinal_lt ha hb h1)
    · right
      have : a.1.y = b.1.y ∧ a.1.m = b.1.m ∧ a.1.d = b.1.d := by omega
      rw [ordinal_eq, ordinal_eq, this.1, this.2.1, this.2.2]
      omega
  unfold instant
  omega

theorem timeLt_total {a b : Date × Clock} (h1 : timeLt a b = false) (h2 : timeLt b a = false) : a = b := by
  unfold timeLt at h1 h2
  simp only [decide_eq_false_iff_not, List.lex_cons_iff', List.lex_nil_right, or_false, and_false] at h1 h2
  obtain ⟨⟨_, _, _⟩, ⟨_, _, _, _⟩⟩ := a
  obtain ⟨⟨_, _, _⟩, ⟨_, _, _, _⟩⟩ := b
  simp only [Prod.mk.injEq, Date.mk.injEq, Clock.mk.injEq] at *
  omega

/-- The comparison of `datetime` objects is that of the instants. -/
theorem timeLt_iff {a b : Date × Clock} (ha : a.1.Valid ∧ a.2.Valid) (hb : b.1.Valid ∧ b.2.Valid) :
    timeLt a b = true ↔ instant a < instant b := by
  refine ⟨instant_lt ha hb, fun h => ?_⟩
  by_contra hn
  rw [Bool.not_eq_true] at hn
  cases h2 : timeLt b a with
  | true => have := instant_lt hb ha h2; omega
  | false => rw [timeLt_total hn h2] at h; omega

theorem instant_inj {a b : Date × Clock} (ha : a.1.Valid ∧ a.2.Valid) (hb : b.1.Valid ∧ b.2.Valid) (h : instant a = instant b) : a = b := by
  apply timeLt_total <;> rw [← Bool.not_eq_true, timeLt_iff] <;> first | assumption | omega

end Gempak
