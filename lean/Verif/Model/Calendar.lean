import Verif.Model.Base

/-!
# Dates and times

Words holding dates and times: written by /repo/src/gempakio/encode/gempak.py (`strftime` then `int`), read by
/repo/src/gempakio/decode/gempak.py:478-510, 547-555 (`f'{w:06d}'` then `strptime`).  Formatting and parsing are rendered
as arithmetic on the decimal digits: with a fixed number of digits every directive takes two of them, since the match of
`strptime` must consume the whole string and no directive takes more than two; hence it succeeds exactly when all fields
are in range.
-/

namespace Gempak

/-- `datetime.date`. -/
structure Date where
  y : Nat
  m : Nat
  d : Nat
  deriving DecidableEq, Repr

/-- `datetime.time` (naive). -/
structure Clock where
  h : Nat
  mi : Nat
  s : Nat
  us : Nat
  deriving DecidableEq, Repr

/-- Leap years of the Gregorian calendar. -/
def isLeap (y : Nat) : Bool := y % 4 == 0 && (y % 100 != 0 || y % 400 == 0)

/-- Number of days of a month. -/
def daysInMonth (y m : Nat) : Nat :=
  if m = 2 then (if isLeap y then 29 else 28) else if m = 4 ∨ m = 6 ∨ m = 9 ∨ m = 11 then 30 else 31

/-- Dates that exist. -/
def Date.Valid (x : Date) : Prop :=
  1 ≤ x.y ∧ x.y ≤ 9999 ∧ 1 ≤ x.m ∧ x.m ≤ 12 ∧ 1 ≤ x.d ∧ x.d ≤ daysInMonth x.y x.m

instance (x : Date) : Decidable x.Valid := by unfold Date.Valid; infer_instance

/-- Times that exist. -/
def Clock.Valid (c : Clock) : Prop := c.h < 24 ∧ c.mi < 60 ∧ c.s < 60 ∧ c.us < 1000000

instance (c : Clock) : Decidable c.Valid := by unfold Clock.Valid; infer_instance

/-- Days before a month of a year. -/
def daysBeforeMonth (y m : Nat) : Nat := ((List.range (m - 1)).map fun k => daysInMonth y (k + 1)).sum

/-- `date.toordinal()`. -/
def Date.ordinal (x : Date) : Nat :=
  (x.y - 1) * 365 + (x.y - 1) / 4 - (x.y - 1) / 100 + (x.y - 1) / 400 + daysBeforeMonth x.y x.m + x.d

/-- The next day. -/
def Date.next (x : Date) : Date :=
  if x.d < daysInMonth x.y x.m then ⟨x.y, x.m, x.d + 1⟩ else if x.m < 12 then ⟨x.y, x.m + 1, 1⟩ else ⟨x.y + 1, 1, 1⟩

/-- Days later. -/
def Date.addDays (x : Date) : Nat → Date
  | 0 => x
  | n + 1 => x.next.addDays n

/-- The day before. -/
def Date.prev (x : Date) : Date :=
  if 1 < x.d then ⟨x.y, x.m, x.d - 1⟩ else if 1 < x.m then ⟨x.y, x.m - 1, daysInMonth x.y (x.m - 1)⟩ else ⟨x.y - 1, 12, 31⟩

/-- Days earlier. -/
def Date.subDays (x : Date) : Nat → Date
  | 0 => x
  | n + 1 => x.prev.subDays n

/-- `datetime + timedelta(hours=n)`: `OverflowError` beyond the years 1 to 9999. -/
def addHours (t : Date × Clock) (n : Int) : Except PyErr (Date × Clock) :=
  let days := (t.2.h + n) / 24
  if t.1.ordinal + days < 1 ∨ 3652059 < t.1.ordinal + days then .error .overflowError
  else .ok (if 0 ≤ days then t.1.addDays days.toNat else t.1.subDays (-days).toNat, { t.2 with h := ((t.2.h + n) % 24).toNat })

/-- `int(date.strftime('%y%m%d'))` (encode/gempak.py:979, 1277, 1543). -/
def dateWord (x : Date) : Int := ((x.y % 100 * 10000 + x.m * 100 + x.d : Nat) : Int)

/-- `int(time.strftime('%H%M'))` (encode/gempak.py:1280, 1321, 1546, 1585). -/
def timeWord (c : Clock) : Int := ((c.h * 100 + c.mi : Nat) : Int)

/-- `int(datetime.strftime('%m%d%y%H%M'))` (encode/gempak.py:976-984). -/
def gridWord (x : Date) (c : Clock) : Int :=
  ((x.m * 100000000 + x.d * 1000000 + x.y % 100 * 10000 + c.h * 100 + c.mi : Nat) : Int)

/-- Two-digit years of `%y`: 69–99 are 1969–1999, 0–68 are 2000–2068. -/
def pivotYear (yy : Nat) : Nat := if yy ≤ 68 then 2000 + yy else 1900 + yy

/-- Construction of a date: `ValueError` when it does not exist. -/
def mkDate (y m d : Nat) : Except PyErr Date := if Date.Valid ⟨y, m, d⟩ then .ok ⟨y, m, d⟩ else .error .valueError

/-- Construction of a time to the minute. -/
def mkClock (h mi : Nat) : Except PyErr Clock := if h < 24 ∧ mi < 60 then .ok ⟨h, mi, 0, 0⟩ else .error .valueError

/-- `datetime.strptime(f'{w:06d}', '%y%m%d')`. -/
def parseYmd (w : Int) : Except PyErr (Date × Clock) :=
  if w < 0 ∨ 1000000 ≤ w then .error .valueError
  else do
    let x ← mkDate (pivotYear (w.toNat / 10000)) (w.toNat / 100 % 100) (w.toNat % 100)
    .ok (x, ⟨0, 0, 0, 0⟩)

/-- `datetime.strptime(f'{w:010d}', '%m%d%y%H%M')` for `w ≥ 100000000`. -/
def parseMdyhm (w : Int) : Except PyErr (Date × Clock) :=
  if 10000000000 ≤ w then .error .valueError
  else do
    let x ← mkDate (pivotYear (w.toNat / 10000 % 100)) (w.toNat / 100000000) (w.toNat / 1000000 % 100)
    let c ← mkClock (w.toNat / 100 % 100) (w.toNat % 100)
    .ok (x, c)

/-- `_convert_dattim` (decode/gempak.py:478-492). -/
def convertDattim (w : Int) : Except PyErr (Option (Date × Clock)) :=
  if w = 0 then .ok none
  else if w < 100000000 then (parseYmd w).map some
  else (parseMdyhm w).map some

/-- `_make_date` (decode/gempak.py:547-549); `None` has no `date`. -/
def makeDate (w : Int) : Except PyErr Date := do
  match ← convertDattim w with
  | some x => .ok x.1
  | none => .error .attributeError

/-- `_make_time` (decode/gempak.py:552-555). -/
def makeTime (w : Int) : Except PyErr Clock :=
  if w < 0 ∨ 10000 ≤ w then .error .valueError else mkClock (w.toNat / 100) (w.toNat % 100)

/-- `_convert_ftime` (decode/gempak.py:495-510): forecast type and lead time, the latter in minutes. -/
def convertFtime (w : Int) : Except PyErr (Option (Int × Int)) :=
  if 0 ≤ w then
    let t := w / 100000
    if 0 ≤ t ∧ t ≤ 3 then
      let r := w - t * 100000
      .ok (some (t, r / 100 * 60 + (r - r / 100 * 100)))
    else .error .valueError
  else .ok none

/-- `_convert_level` (decode/gempak.py:513-518). -/
def convertLevel (w : Int) : Option Int := if 0 ≤ w then some w else none

end Gempak
