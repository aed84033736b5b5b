import Mathlib.Data.Nat.Log
import Mathlib.Tactic.Positivity
import Mathlib.Tactic.IntervalCases
import Verif.Proof.GridBuild
import Verif.Proof.Time
import Verif.Proof.StationFile

/-!
# Grid files: column headers read back
-/

namespace Gempak
open Spec

/-! ## Adding minutes -/

theorem next_valid {x : Date} (h : x.Valid) (hy : x.y ≤ 9998) : x.next.Valid ∧ x.next.ordinal = x.ordinal + 1 ∧ x.next.y ≤ x.y + 1 := by
  obtain ⟨h1, h2, h3, h4, h5, h6⟩ := h
  unfold Date.next
  split
  · rename_i hd
    refine ⟨⟨h1, h2, h3, h4, by dsimp only; omega, by dsimp only; omega⟩, ?_, by dsimp only; omega⟩
    rw [ordinal_eq, ordinal_eq]; dsimp only; omega
  · rename_i hd
    have hd' : x.d = daysInMonth x.y x.m := by omega
    split
    · rename_i hm
      have hpos : 1 ≤ daysInMonth x.y (x.m + 1) := by
        unfold daysInMonth
        split
        · split <;> omega
        · split <;> omega
      refine ⟨⟨h1, h2, by dsimp only; omega, by dsimp only; omega, le_refl _, hpos⟩, ?_, by dsimp only; omega⟩
      rw [ordinal_eq, ordinal_eq]
      dsimp only
      rw [daysBeforeMonth_succ _ _ h3, hd']; omega
    · rename_i hm
      have hm12 : x.m = 12 := by omega
      refine ⟨⟨by dsimp only; omega, by dsimp only; omega, by dsimp only; omega, by dsimp only; omega, le_refl _, ?_⟩, ?_, by dsimp only; omega⟩
      · show 1 ≤ daysInMonth (x.y + 1) 1
        unfold daysInMonth; simp
      · rw [ordinal_eq, ordinal_eq]
        dsimp only
        have h13 : daysBeforeMonth x.y 13 = _ := daysBeforeMonth_succ x.y 12 (by omega)
        have h13' := daysBeforeMonth_13 x.y
        have h01 : daysBeforeMonth (x.y + 1) 1 = 0 := rfl
        rw [yearStart_succ _ h1, h01, hd', hm12]
        omega

theorem addDays_valid (n : Nat) : ∀ {x : Date}, x.Valid → x.y + n ≤ 9999 →
    (x.addDays n).Valid ∧ (x.addDays n).ordinal = x.ordinal + n := by
  induction n with
  | zero => intro x h _; exact ⟨h, rfl⟩
  | succ n ih =>
    intro x h hy
    obtain ⟨h1, h2, h3⟩ := next_valid h (by omega)
    obtain ⟨h4, h5⟩ := ih h1 (by omega)
    refine ⟨h4, ?_⟩
    show (x.next.addDays n).ordinal = _
    rw [h5, h2]; omega

theorem addMinutes_instant {t : Date × Clock} (h1 : t.1.Valid) (h2 : t.2.Valid) (hy : t.1.y ≤ 2068) {n : Int} (h0 : 0 ≤ n) (hn : n ≤ 70000) :
    instant (addMinutes t n) = instant t + n * 60000000 ∧ (addMinutes t n).1.Valid ∧ (addMinutes t n).2.Valid := by
  obtain ⟨d, c⟩ := t
  obtain ⟨k, rfl⟩ : ∃ k : Nat, n = k := ⟨n.toNat, by omega⟩
  obtain ⟨c1, c2, c3, c4⟩ := h2
  dsimp only at *
  unfold addMinutes
  dsimp only
  rw [Int.toNat_natCast]
  have hk : (c.h * 60 + c.mi + k) / 1440 ≤ 100 := by omega
  obtain ⟨a1, a2⟩ := addDays_valid ((c.h * 60 + c.mi + k) / 1440) h1 (by omega)
  refine ⟨?_, a1, ?_⟩
  · unfold instant
    dsimp only
    rw [a2]
    generalize d.ordinal = o
    have e1 : ((o + (c.h * 60 + c.mi + k) / 1440) * 24 + (c.h * 60 + c.mi + k) % 1440 / 60) * 60 + (c.h * 60 + c.mi + k) % 60 =
        (o * 24 + c.h) * 60 + c.mi + k := by
      generalize hT : c.h * 60 + c.mi + k = T
      have : T % 1440 % 60 = T % 60 := by omega
      omega
    rw [e1]
    push_cast
    omega
  · refine ⟨?_, ?_, c3, c4⟩
    · show (c.h * 60 + c.mi + k) % 1440 / 60 < 24
      omega
    · show (c.h * 60 + c.mi + k) % 60 < 60
      omega

/-! ## Legible entries -/

/-- Times that fit the words of a header. -/
structure Spec.When.Legible (w : When) : Prop where
  date : w.date.Valid
  clock : w.clock.Valid
  hours : 0 ≤ w.hours ∧ w.hours < 1000
  minutes : 0 ≤ w.minutes ∧ w.minutes < 100

/-- A lead time as it is read.  Hours and minutes are written one after the other, the minutes with two digits or as many as they have; the
last two digits are read as minutes, all before them as hours. -/
def Spec.When.seen (w : When) : When :=
  { w with hours := w.hours * 10 ^ (Nat.log 10 w.minutes.toNat - 1) + w.minutes / 100, minutes := w.minutes % 100 }

/-- Times whose lead time fits a word, even if not as hours and minutes. -/
structure Spec.When.Fits (w : When) : Prop where
  date : w.date.Valid
  clock : w.clock.Valid
  hours : 0 ≤ w.hours
  minutes : 0 ≤ w.minutes
  lead : w.seen.hours < 1000

theorem Spec.When.Legible.seen_eq {w : When} (h : w.Legible) : w.seen = w := by
  obtain ⟨h1, h2⟩ := h.minutes
  have hl : Nat.log 10 w.minutes.toNat - 1 = 0 := by
    have : Nat.log 10 w.minutes.toNat < 2 := Nat.log_lt_of_lt_pow' (by decide) (by omega)
    omega
  unfold When.seen
  rw [hl, pow_zero, mul_one, Int.ediv_eq_zero_of_lt h1 h2, Int.emod_eq_of_lt h1 h2, add_zero]

theorem Spec.When.Legible.fits {w : When} (h : w.Legible) : w.Fits :=
  ⟨h.date, h.clock, h.hours.1, h.minutes.1, by rw [h.seen_eq]; exact h.hours.2⟩

theorem Spec.When.Fits.legible {w : When} (h : w.Fits) : w.seen.Legible := by
  have h1 := h.hours
  have h2 := h.minutes
  refine ⟨h.date, h.clock, ⟨?_, h.lead⟩, ?_, ?_⟩
  · have : 0 ≤ w.minutes / 100 := by omega
    unfold When.seen
    positivity
  · show 0 ≤ w.minutes % 100
    omega
  · show w.minutes % 100 < 100
    omega

/-- Names of which every four characters are trimmed and fit a word. -/
def NameLegible (n : Text) : Prop := Name4 (n.take 4) ∧ Name4 ((n.drop 4).take 4) ∧ Name4 (n.drop 8)

/-- A text in a word: the first four bytes of its encoding, with blanks behind it, decoded if they can be. -/
def Spec.inWord (s : Text) : Option Text := utf8Dec ((utf8 (ljust 4 s)).take 4)

/-- A name as it is read: every four characters cut to four bytes, without outer blanks. -/
def Spec.seenName (n : Text) : Text :=
  strip ((inWord (n.take 4)).getD []) ++ strip ((inWord ((n.drop 4).take 4)).getD []) ++ strip ((inWord (n.drop 8)).getD [])

/-- Names that can be decoded when every four characters are cut to four bytes. -/
def Spec.Decodable (n : Text) : Prop :=
  (inWord (n.take 4)).isSome ∧ (inWord ((n.drop 4).take 4)).isSome ∧ (inWord (n.drop 8)).isSome

instance (n : Text) : Decidable (Decodable n) := by unfold Decodable; infer_instance

theorem inWord_fits {s : Text} (h : (utf8 (ljust 4 s)).length = 4) : inWord s = some (ljust 4 s) := by
  unfold inWord
  rw [List.take_of_length_le h.le, utf8Dec_utf8]

theorem strip_inWord {s : Text} (h : (utf8 (ljust 4 s)).length = 4) : strip ((inWord s).getD []) = strip s := by
  rw [inWord_fits h, Option.getD_some, ljust, strip_append_blanks]

/-- An entry as it is read. -/
def Spec.GEntry.seen (e : GEntry) : GEntry :=
  { e with first := e.first.seen, second := e.second.map When.seen, name := seenName e.name }

/-- Entries with times that fit a header. -/
structure Spec.GEntry.Timed (e : GEntry) : Prop where
  first : e.first.Fits
  second : ∀ w, e.second = some w → w.Fits

/-- Hours and minutes one after the other, the minutes with two digits or as many as they have. -/
def Spec.When.digits (w : When) : Int :=
  if 0 ≤ w.hours then w.hours * 10 ^ max 2 (Nat.log 10 w.minutes.toNat + 1) + w.minutes
  else -(-w.hours * 10 ^ max 2 (Nat.log 10 w.minutes.toNat + 1) + w.minutes)

/-- The number written for a time: its type before the digits of its lead time. -/
def Spec.When.stamp (w : When) : Int := w.type * 100000 + w.digits

/-- Times whose lead time can be written as a number of 32 bits. -/
structure Spec.When.Stamped (w : When) : Prop where
  date : w.date.Valid
  clock : w.clock.Valid
  minutes : 0 ≤ w.minutes
  lead : |w.digits| ≤ 2000000000

/-- Entries with times that can be written. -/
structure Spec.GEntry.Stamped (e : GEntry) : Prop where
  first : e.first.Stamped
  second : ∀ w, e.second = some w → w.Stamped

theorem Spec.When.digits_seen {w : When} (h : 0 ≤ w.hours) : w.digits = w.seen.hours * 100 + w.seen.minutes := by
  unfold When.digits
  rw [if_pos h]
  have he : (10 : Int) ^ max 2 (Nat.log 10 w.minutes.toNat + 1) = 10 ^ (Nat.log 10 w.minutes.toNat - 1) * 100 := by
    rw [show max 2 (Nat.log 10 w.minutes.toNat + 1) = Nat.log 10 w.minutes.toNat - 1 + 2 by omega, pow_add]
    norm_num
  show _ = (w.hours * 10 ^ (Nat.log 10 w.minutes.toNat - 1) + w.minutes / 100) * 100 + w.minutes % 100
  rw [he, add_mul, ← mul_assoc]
  omega

theorem Spec.When.Fits.stamped {w : When} (h : w.Fits) : w.Stamped := by
  refine ⟨h.date, h.clock, h.minutes, ?_⟩
  rw [When.digits_seen h.hours, abs_le]
  obtain ⟨h1, h2⟩ := h.legible.hours
  obtain ⟨h3, h4⟩ := h.legible.minutes
  omega

theorem Spec.GEntry.Timed.stamped {e : GEntry} (h : e.Timed) : e.Stamped :=
  ⟨h.first.stamped, fun w hw => (h.second w hw).stamped⟩

/-- Entries with times that fit a header and names that can be decoded. -/
structure Spec.GEntry.Readable (e : GEntry) : Prop extends e.Timed where
  name : Decodable e.name

/-- Entries that fit a header. -/
structure Spec.GEntry.Legible (e : GEntry) : Prop where
  first : e.first.Legible
  second : ∀ w, e.second = some w → w.Legible
  name : NameLegible e.name

theorem name_join (n : Text) : n.take 4 ++ (n.drop 4).take 4 ++ n.drop 8 = n := by
  have h1 : n.drop 8 = (n.drop 4).drop 4 := by rw [List.drop_drop]
  rw [h1, List.append_assoc, List.take_append_drop, List.take_append_drop]

theorem Spec.GEntry.Legible.readable {e : GEntry} (h : e.Legible) : e.Readable :=
  ⟨⟨h.first.fits, fun w hw => (h.second w hw).fits⟩, by rw [inWord_fits h.name.1.2]; rfl, by rw [inWord_fits h.name.2.1.2]; rfl,
    by rw [inWord_fits h.name.2.2.2]; rfl⟩

theorem Spec.GEntry.Legible.seen_eq {e : GEntry} (h : e.Legible) : e.seen = e := by
  obtain ⟨h1, h2, h3⟩ := h.name
  have hs : e.second.map When.seen = e.second := by
    cases hs : e.second with
    | none => rfl
    | some w => rw [Option.map_some, (h.second w hs).seen_eq]
  unfold GEntry.seen seenName
  rw [strip_inWord h1.2, strip_inWord h2.2, strip_inWord h3.2, strip_trimmed _ h1.1, strip_trimmed _ h2.1, strip_trimmed _ h3.1, name_join,
    h.first.seen_eq, hs]

/-- Forecast types are those of the letters. -/
structure Spec.GEntry.Typed (e : GEntry) : Prop where
  first : e.first.type ≤ 3
  second : ∀ w, e.second = some w → w.type ≤ 3

theorem whenOf_type {env : GridEnv} {t : Text} {w : When} (h : whenOf env t = some w) : w.type ≤ 3 := by
  cases hd : t.dropWhile noLetter with
  | nil =>
    rw [whenOf_plain env hd] at h
    obtain ⟨x, _, rfl⟩ := Option.map_eq_some_iff.1 h
    exact Nat.zero_le _
  | cons g lead =>
    obtain ⟨_, hg⟩ := splitTypes_letter hd
    obtain ⟨n, hn⟩ : ∃ n, letterNumber g = some n := by
      cases hl : letterNumber g with
      | none => rw [noLetter, hl] at hg; cases hg
      | some n => exact ⟨n, rfl⟩
    rw [whenOf_letter env hd hn] at h
    split at h
    · unfold whenPieces at h
      split at h
      · obtain rfl := Option.some.inj h
        exact (letterNumber_some hn).2
      · cases h
    · cases h

theorem gEntry_typed {env : GridEnv} {nx ny : Nat} {r : GridReq} {e : GEntry} (h : gEntry env nx ny r = some e) : e.Typed := by
  unfold gEntry at h
  split at h
  · obtain ⟨n, h1, h⟩ := bind_some h
    obtain ⟨c, h2, h⟩ := bind_some h
    obtain ⟨l, h3, h⟩ := bind_some h
    obtain ⟨l2, h4, h⟩ := bind_some h
    obtain ⟨t, h5, h⟩ := bind_some h
    obtain ⟨t2, h6, h⟩ := bind_some h
    obtain rfl := Option.some.inj h
    refine ⟨?_, ?_⟩
    · unfold firstOf at h5
      split at h5
      · obtain rfl := Option.some.inj h5; exact Nat.zero_le _
      · split at h5
        · exact whenOf_type h5
        · cases h5
      · cases h5
    · rintro w hw
      dsimp only at hw
      subst hw
      unfold secondOf at h6
      split at h6
      · cases h6
      · obtain rfl := Option.some.inj (Option.some.inj h6); exact Nat.zero_le _
      · split at h6
        · split at h6
          · rename_i v hv
            split at h6
            · cases h6
            · obtain rfl := Option.some.inj (Option.some.inj h6)
              exact whenOf_type hv
          · cases h6
        · cases h6
      · cases h6
  · cases h

/-! ## Words -/

theorem numDigits_eq (m : Nat) : numDigits m = Nat.log 10 m + 1 := by
  unfold numDigits
  apply le_antisymm
  · rw [Nat.length_toDigits_le_iff (by decide) (by omega)]
    exact Nat.lt_pow_succ_log_self (by decide) m
  · by_contra hlt
    rcases Nat.eq_zero_or_pos (Nat.log 10 m) with h0 | h0
    · have := Nat.length_toDigits_pos (b := 10) (n := m)
      omega
    · have h1 : (Nat.toDigits 10 m).length ≤ Nat.log 10 m := by omega
      rw [Nat.length_toDigits_le_iff (by decide) h0] at h1
      have hm : m ≠ 0 := by rintro rfl; simp at h0
      have := Nat.pow_log_le_self 10 hm
      omega

theorem gtmWord_stamped {w : When} (h : 0 ≤ w.minutes) : gtmWord w.gtime = .ok w.stamp := by
  unfold gtmWord hhmm When.gtime
  dsimp only
  rw [if_neg (by omega), numDigits_eq]
  have key : (if 0 ≤ w.hours then Except.ok (w.hours * 10 ^ max 2 (Nat.log 10 w.minutes.toNat + 1) + w.minutes)
      else Except.ok (-(-w.hours * 10 ^ max 2 (Nat.log 10 w.minutes.toNat + 1) + w.minutes)) : Except PyErr Int) = .ok w.digits := by
    unfold When.digits
    split <;> rfl
  rw [key, ok_bind]
  unfold When.stamp
  by_cases ht : w.type = 0
  · rw [if_pos ht, ht]; push_cast; rw [zero_add]
  · rw [if_neg ht]

theorem gtmWord_fits {w : When} (h : w.Fits) :
    gtmWord w.gtime = .ok (w.type * 100000 + (w.seen.hours * 100 + w.seen.minutes)) := by
  rw [gtmWord_stamped h.minutes, When.stamp, When.digits_seen h.hours]

theorem convertFtime_legible {t : Nat} {h m : Int} (ht : t ≤ 3) (hh : 0 ≤ h ∧ h < 1000) (hm : 0 ≤ m ∧ m < 100) :
    convertFtime (t * 100000 + (h * 100 + m)) = .ok (some (t, h * 60 + m)) := by
  unfold convertFtime
  rw [if_pos (by omega)]
  simp only
  have h1 : ((t : Int) * 100000 + (h * 100 + m)) / 100000 = t := by omega
  rw [h1, if_pos (by omega)]
  have h2 : ((t : Int) * 100000 + (h * 100 + m) - t * 100000) = h * 100 + m := by omega
  rw [h2]
  have h3 : (h * 100 + m) / 100 = h := by omega
  rw [h3]
  congr 3
  omega

theorem storedTime_eq (x : Date) (c : Clock) : storedTime x c = (⟨windowYear x.y, x.m, x.d⟩, ⟨c.h, c.mi, 0, 0⟩) := by
  unfold storedTime
  have := pivotYear_eq x.y
  unfold pivotYear at this
  rw [this]

/-- The start of a time in a header. -/
def startOf (w : When) : Date × Clock := ((storedTime w.date w.clock).1, if w.type = 0 then ⟨0, 0, 0, 0⟩ else (storedTime w.date w.clock).2)

theorem convertDattim_ymd (x : Date) (h : x.Valid) :
    convertDattim (dateWord x) = .ok (some (⟨windowYear x.y, x.m, x.d⟩, ⟨0, 0, 0, 0⟩)) := by
  have hv := valid_window h
  obtain ⟨h1, h2, h3, h4, h5, h6⟩ := h
  have h7 := daysInMonth_le x.y x.m
  unfold convertDattim dateWord
  rw [if_neg (by omega), if_pos (by omega)]
  unfold parseYmd mkDate
  rw [if_neg (by omega)]
  simp only [Int.toNat_natCast]
  rw [show (x.y % 100 * 10000 + x.m * 100 + x.d) / 10000 = x.y % 100 by omega,
    show (x.y % 100 * 10000 + x.m * 100 + x.d) / 100 % 100 = x.m by omega,
    show (x.y % 100 * 10000 + x.m * 100 + x.d) % 100 = x.d by omega, pivotYear_eq, if_pos hv]
  rfl

theorem convertDattim_stamped {w : When} (h : w.Stamped) : convertDattim (gdtWord w.gdate) = .ok (some (startOf w)) := by
  unfold gdtWord startOf
  rw [storedTime_eq]
  by_cases ht : w.type = 0
  · have : w.gdate.type = 0 := ht
    rw [if_pos this, if_pos ht]
    exact convertDattim_ymd _ h.date
  · have : ¬ w.gdate.type = 0 := ht
    rw [if_neg this, if_neg ht]
    exact C23_grid_word _ _ h.date h.clock

theorem convertDattim_fits {w : When} (h : w.Fits) : convertDattim (gdtWord w.gdate) = .ok (some (startOf w)) :=
  convertDattim_stamped h.stamped

theorem valid_of_legible {w : When} (h : w.Legible) : IsValidTime w (addMinutes (startOf w) (w.hours * 60 + w.minutes)) := by
  obtain ⟨h1, h2⟩ := h.hours
  obtain ⟨m1, m2⟩ := h.minutes
  have hv : (startOf w).1.Valid := by
    unfold startOf; rw [storedTime_eq]; exact valid_window h.date
  have hc : (startOf w).2.Valid := by
    unfold startOf
    rw [storedTime_eq]
    dsimp only
    split
    · exact ⟨by decide, by decide, by decide, by decide⟩
    · obtain ⟨c1, c2, c3, c4⟩ := h.clock
      exact ⟨c1, c2, Nat.zero_lt_succ _, Nat.zero_lt_succ _⟩
  have hy : (startOf w).1.y ≤ 2068 := by
    unfold startOf; rw [storedTime_eq]
    show windowYear _ ≤ 2068
    unfold windowYear; omega
  obtain ⟨i1, i2⟩ := addMinutes_instant hv hc hy (n := w.hours * 60 + w.minutes) (by omega) (by omega)
  exact ⟨i1, i2⟩

/-! ## Names -/

theorem ljust_idem (n : Nat) (s : Text) : ljust n (ljust n s) = ljust n s := by
  have : (ljust n s).length = max n s.length := by unfold ljust; rw [List.length_append, List.length_replicate]; omega
  conv_lhs => unfold ljust
  rw [show n - (s ++ List.replicate (n - s.length) ' ').length = 0 by
    rw [List.length_append, List.length_replicate]; omega]
  simp [ljust]

theorem chunk_eq {n : Text} (h : n.length ≤ 12) :
    (chunks n).1 = ljust 4 (n.take 4) ∧ (chunks n).2.1 = ljust 4 ((n.drop 4).take 4) ∧ (chunks n).2.2 = ljust 4 (n.drop 8) := by
  unfold chunks ljust
  dsimp only
  refine ⟨?_, ?_, ?_⟩
  · rw [List.take_append, List.take_replicate, List.length_take]
    congr 2; omega
  · rw [List.drop_append, List.take_append, List.drop_replicate, List.take_replicate, List.length_take, List.length_drop]
    congr 2; omega
  · rw [List.drop_append, List.drop_replicate, List.length_drop]
    congr 2; omega

theorem nameWord_ljust (s : Text) : nameWord (ljust 4 s) = nameWord s := by
  unfold nameWord; rw [ljust_idem]

theorem utf8_ljust_length (s : Text) : 4 ≤ (utf8 (ljust 4 s)).length := by
  have h2 := utf8_length_ge (ljust 4 s)
  have h3 : 4 ≤ (ljust 4 s).length := by
    unfold ljust; rw [List.length_append, List.length_replicate]; omega
  omega

/-- The words of names are read without outer blanks, or not at all. -/
theorem stored_nameWord (s : Text) :
    textOf (stored (nameWord s)) = if (inWord s).isSome then .ok (strip ((inWord s).getD [])) else .error .unicodeError := by
  have h := utf8_ljust_length s
  have e : stored (nameWord s) = .str ((utf8 (ljust 4 s)).take 4) := by
    show Val.str _ = _
    rw [show 4 - (utf8 (ljust 4 s)).length = 0 by omega]
    simp
  rw [e]
  show decodeStrip _ = _
  unfold decodeStrip inWord
  cases utf8Dec ((utf8 (ljust 4 s)).take 4) <;> rfl

/-! ## Headers -/

/-- The second time in a header. -/
def secondGiven (s : Option When) : GVal × GVal :=
  match s with
  | none => (.dattim none, .ftime (some (0, 0)))
  | some w => (.dattim (some (startOf w)), .ftime (some (w.type, w.seen.hours * 60 + w.seen.minutes)))

/-- The header read for an entry. -/
def headOf (e : GEntry) : GHeader :=
  [(txt "GDT1", .dattim (some (startOf e.first))), (txt "GTM1", .ftime (some (e.first.type, e.first.seen.hours * 60 + e.first.seen.minutes))),
    (txt "GDT2", (secondGiven e.second).1), (txt "GTM2", (secondGiven e.second).2), (txt "GLV1", .level (listedLevel e.level)),
    (txt "GLV2", .level (listedLevel e.level2)), (txt "GVCD", .text (verticalNamesUpper.getD (coordNumber e.coord) [])),
    (txt "GPM1", .text (strip ((inWord (e.name.take 4)).getD []))), (txt "GPM2", .text (strip ((inWord ((e.name.drop 4).take 4)).getD []))), (txt "GPM3", .text (strip ((inWord (e.name.drop 8)).getD [])))]

theorem gridKeys : gridColumns.map gridKey = [.dattim, .ftime, .dattim, .ftime, .level, .level, .coord, .text, .text, .text] := by
  decide +kernel

theorem gcolWords_legible {e : GEntry} (h : e.Timed) (ht : e.Typed) : ∃ t2,
    convertFtime t2 = .ok (some (match e.second with | none => (0, 0) | some w => ((w.type : Int), w.seen.hours * 60 + w.seen.minutes))) ∧
    gcolWords e.col = .ok [.int (gdtWord e.first.gdate), .int (e.first.type * 100000 + (e.first.seen.hours * 100 + e.first.seen.minutes)),
      .int (gdt2Word (e.second.map When.gdate)), .int t2, .int e.level, .int e.level2, .int (coordNumber e.coord), nameWord (chunks e.name).1,
      nameWord (chunks e.name).2.1, nameWord (chunks e.name).2.2] := by
  have h1 := gtmWord_fits h.first
  cases hs : e.second with
  | none =>
    refine ⟨0, by decide, ?_⟩
    have h2 : gtmWord (secondLead none) = .ok 0 := by decide +kernel
    unfold gcolWords GEntry.col
    dsimp only
    rw [h1, ok_bind, hs, h2, ok_bind]
  | some w =>
    refine ⟨w.type * 100000 + (w.seen.hours * 100 + w.seen.minutes), ?_, ?_⟩
    · have hw := h.second w hs
      exact convertFtime_legible (ht.second w hs) hw.legible.hours hw.legible.minutes
    · have h2 : gtmWord (secondLead (some w)) = _ := gtmWord_fits (h.second w hs)
      unfold gcolWords GEntry.col
      dsimp only
      rw [h1, ok_bind, hs, h2, ok_bind]

theorem gridKey_cols : gridKey (txt "GDT1") = .dattim ∧ gridKey (txt "GTM1") = .ftime ∧ gridKey (txt "GDT2") = .dattim ∧
    gridKey (txt "GTM2") = .ftime ∧ gridKey (txt "GLV1") = .level ∧ gridKey (txt "GLV2") = .level ∧ gridKey (txt "GVCD") = .coord ∧
    gridKey (txt "GPM1") = .text ∧ gridKey (txt "GPM2") = .text ∧ gridKey (txt "GPM3") = .text := by decide +kernel

theorem convGHeader_cons {o : Endian} {k : Text} {ks : List Text} {v : Val} {vs : List Val} {kd : GKind} {x : GVal} {r : GHeader}
    (hk : gridKey k = kd) (hx : kd.conv o v = .ok x) (hr : convGHeader o ks vs = .ok r) :
    convGHeader o (k :: ks) (v :: vs) = .ok ((k, x) :: r) := by
  unfold convGHeader
  rw [hk, hx, ok_bind, hr, ok_bind]

/-- The column header of an entry is read back. -/
theorem header_read {e : GEntry} {nx ny : Nat} (o : Endian) (h : e.Readable) (hs : e.Sound nx ny) (ht : e.Typed) {vs : List Val}
    (hv : gcolWords e.col = .ok vs) :
    vs.map Val.fmt = gridColumns.map (fun k => (gridKey k).fmt) ∧ convGHeader o gridColumns (vs.map stored) = .ok (headOf e) := by
  obtain ⟨t2, ht2, hw⟩ := gcolWords_legible h.toTimed ht
  obtain rfl := Except.ok.inj (hv.symm.trans hw)
  obtain ⟨k1, k2, k3, k4, k5, k6, k7, k8, k9, k10⟩ := gridKey_cols
  constructor
  · have : gridColumns.map (fun k => (gridKey k).fmt) = (gridColumns.map gridKey).map GKind.fmt := by rw [List.map_map]; rfl
    rw [this, gridKeys]; rfl
  obtain ⟨c1, c2, c3⟩ := chunk_eq hs.name.2
  obtain ⟨n1, n2, n3⟩ := h.name
  unfold gridColumns headOf
  simp only [List.map_cons, List.map_nil]
  refine convGHeader_cons k1 ?_ (convGHeader_cons k2 ?_ (convGHeader_cons k3 ?_ (convGHeader_cons k4 ?_ (convGHeader_cons k5 rfl
    (convGHeader_cons k6 rfl (convGHeader_cons k7 ?_ (convGHeader_cons k8 ?_ (convGHeader_cons k9 ?_ (convGHeader_cons k10 ?_ rfl)))))))))
  · show (convertDattim (gdtWord e.first.gdate) >>= fun d => Except.ok (GVal.dattim d)) = _
    rw [convertDattim_fits h.first]; rfl
  · show (convertFtime (e.first.type * 100000 + (e.first.seen.hours * 100 + e.first.seen.minutes)) >>= fun d => Except.ok (GVal.ftime d)) = _
    rw [convertFtime_legible ht.first h.first.legible.hours h.first.legible.minutes]; rfl
  · show (convertDattim (gdt2Word (e.second.map When.gdate)) >>= fun d => Except.ok (GVal.dattim d)) = _
    cases hsec : e.second with
    | none => rfl
    | some w =>
      show (convertDattim (gdtWord w.gdate) >>= fun d => Except.ok (GVal.dattim d)) = _
      rw [convertDattim_fits (h.second w hsec)]; rfl
  · show (convertFtime t2 >>= fun d => Except.ok (GVal.ftime d)) = _
    rw [ht2]
    cases e.second <;> rfl
  · show (convertCoord o (coordNumber e.coord : Nat) >>= fun d => Except.ok (GVal.text d)) = _
    have := coordNumber_lt hs.coord
    unfold convertCoord
    rw [if_pos (by omega), if_pos (by omega), Int.toNat_natCast]
    rfl
  · show (textOf (stored (nameWord (chunks e.name).1))).map GVal.text = _
    rw [c1, nameWord_ljust, stored_nameWord, if_pos n1]; rfl
  · show (textOf (stored (nameWord (chunks e.name).2.1))).map GVal.text = _
    rw [c2, nameWord_ljust, stored_nameWord, if_pos n2]; rfl
  · show (textOf (stored (nameWord (chunks e.name).2.2))).map GVal.text = _
    rw [c3, nameWord_ljust, stored_nameWord, if_pos n3]; rfl

/-- What is listed for an entry. -/
def infoOfEntry (n : Nat) (e : GEntry) : GridInfo :=
  ⟨n, e.first.type, addMinutes (startOf e.first) (e.first.seen.hours * 60 + e.first.seen.minutes),
    e.second.map (fun w => addMinutes (startOf w) (w.seen.hours * 60 + w.seen.minutes)), seenName e.name, listedLevel e.level, listedLevel e.level2,
    verticalNamesUpper.getD (coordNumber e.coord) []⟩

theorem headOf_get (e : GEntry) :
    dictGet (headOf e) (txt "GDT1") = some (.dattim (some (startOf e.first))) ∧
    dictGet (headOf e) (txt "GTM1") = some (.ftime (some (e.first.type, e.first.seen.hours * 60 + e.first.seen.minutes))) ∧
    dictGet (headOf e) (txt "GDT2") = some (secondGiven e.second).1 ∧
    dictGet (headOf e) (txt "GTM2") = some (secondGiven e.second).2 ∧
    dictGet (headOf e) (txt "GLV1") = some (.level (listedLevel e.level)) ∧
    dictGet (headOf e) (txt "GLV2") = some (.level (listedLevel e.level2)) ∧
    dictGet (headOf e) (txt "GVCD") = some (.text (verticalNamesUpper.getD (coordNumber e.coord) [])) ∧
    dictGet (headOf e) (txt "GPM1") = some (.text (strip ((inWord (e.name.take 4)).getD []))) ∧
    dictGet (headOf e) (txt "GPM2") = some (.text (strip ((inWord ((e.name.drop 4).take 4)).getD []))) ∧
    dictGet (headOf e) (txt "GPM3") = some (.text (strip ((inWord (e.name.drop 8)).getD []))) := by
  have hn : ((headOf e).map Prod.fst).Nodup := by
    show ([txt "GDT1", txt "GTM1", txt "GDT2", txt "GTM2", txt "GLV1", txt "GLV2", txt "GVCD", txt "GPM1", txt "GPM2", txt "GPM3"]).Nodup
    decide +kernel
  simp only [dictGet_eq_some hn]
  unfold headOf
  simp

theorem gridInfo_read (n : Nat) (e : GEntry) : gridInfo n (headOf e) = .ok (infoOfEntry n e) := by
  obtain ⟨g1, g2, g3, g4, g5, g6, g7, g8, g9, g10⟩ := headOf_get e
  have a1 : ghValid (headOf e) = .ok ((e.first.type : Int), addMinutes (startOf e.first) (e.first.seen.hours * 60 + e.first.seen.minutes)) := by
    unfold ghValid ghLead ghDate ghGet
    rw [g1, g2]; rfl
  have a2 : ghValid2 (headOf e) = .ok (e.second.map fun w => addMinutes (startOf w) (w.seen.hours * 60 + w.seen.minutes)) := by
    unfold ghValid2 ghLead ghDate ghGet
    rw [g3, g4]
    cases e.second <;> rfl
  have a3 : ghName (headOf e) = .ok (seenName e.name) := by
    unfold ghName ghText ghGet
    rw [g8, g9, g10]
    rfl
  have a4 : ghLevel (headOf e) (txt "GLV1") = .ok (listedLevel e.level) := by unfold ghLevel ghGet; rw [g5]; rfl
  have a5 : ghLevel (headOf e) (txt "GLV2") = .ok (listedLevel e.level2) := by unfold ghLevel ghGet; rw [g6]; rfl
  have a6 : ghText (headOf e) (txt "GVCD") = .ok (verticalNamesUpper.getD (coordNumber e.coord) []) := by
    unfold ghText ghGet; rw [g7]; rfl
  unfold gridInfo infoOfEntry
  rw [a1, ok_bind, a2, ok_bind, a3, ok_bind, a4, ok_bind, a5, ok_bind, a6, ok_bind]

theorem info_listed {e : GEntry} {nx ny : Nat} (n : Nat) (h : e.Readable) (hs : e.Sound nx ny) : IsGridListed e.seen (infoOfEntry n e) := by
  refine ⟨rfl, valid_of_legible h.first.legible, ?_, rfl, rfl, rfl, coordNumber_listed hs.coord⟩
  cases hsec : e.second with
  | none => left; exact ⟨by unfold GEntry.seen; rw [hsec]; rfl, by unfold infoOfEntry; rw [hsec]; rfl⟩
  | some w =>
    right
    exact ⟨w.seen, _, by unfold GEntry.seen; rw [hsec]; rfl, by unfold infoOfEntry; rw [hsec]; rfl, valid_of_legible (h.second w hsec).legible⟩

end Gempak
