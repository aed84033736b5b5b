import Verif.Props.Surface
import Verif.Props.Sounding
import Verif.Proof.GribFloat
import Mathlib.Tactic.NormNum
import Mathlib.Tactic.Linarith
import Mathlib.Tactic.FieldSimp

/-!
# C105: coordinates given to the hundredth of a degree

A coordinate is written as `int(x * 100)` (/repo/src/gempakio/encode/gempak.py:1302,1568) and read as that integer over 100
(/repo/src/gempakio/decode/gempak.py:1185-1187,2331-2333).  Both are done here in binary floating point of 53 bits, rounding to
nearest with ties to even; exponents are unbounded (coordinates are far from overflow).
-/

namespace Gempak

open Gempak.Grib (rnd)
open Spec

/-- `int(x * 100)` for a Python float (encode/gempak.py:1302,1568). -/
def centiF (x : ℚ) : Int := truncQ (rnd 53 (x * 100))

/-- `n / 100` for an integer of the file (decode/gempak.py:1185-1187,2331-2333); also the float a decimal of two places denotes. -/
def degF (n : Int) : ℚ := rnd 53 ((n : ℚ) / 100)

/-! ## Rounding to nearest -/

theorem roundEven_neg (q : ℚ) : Grib.roundEven (-q) = -Grib.roundEven q := by
  unfold Grib.roundEven
  have h1 := Int.floor_le q
  have h2 := Int.lt_floor_add_one q
  have h3 := Int.floor_le (-q)
  have h4 := Int.lt_floor_add_one (-q)
  by_cases he : q = ⌊q⌋
  · have e1 : ⌊-q⌋ = -⌊q⌋ := by
      rw [Int.floor_eq_iff]; push_cast; constructor <;> linarith
    rw [e1]
    push_cast
    rw [if_pos (by linarith), if_pos (by linarith)]
  · have hlt : (⌊q⌋ : ℚ) < q := lt_of_le_of_ne h1 (Ne.symm he)
    have e1 : ⌊-q⌋ = -⌊q⌋ - 1 := by
      rw [Int.floor_eq_iff]; push_cast; constructor <;> linarith
    rw [e1]
    push_cast
    split_ifs <;> first | omega | (exfalso; linarith)

theorem rnd_neg (p : ℕ) (x : ℚ) : rnd p (-x) = -rnd p x := by
  unfold rnd
  rw [abs_neg, neg_div, roundEven_neg]
  push_cast
  ring

theorem rnd_nonpos (p : ℕ) {x : ℚ} (h : x ≤ 0) : rnd p x ≤ 0 := by
  have := Grib.rnd_nonneg p (x := -x) (by linarith)
  rw [rnd_neg] at this
  linarith

/-- Rounding to floats of 53 bits is a rounding as `C29_coordinates` and `C29_sounding` suppose. -/
theorem rnd_Rounding : Rounding (rnd 53) := by
  constructor
  · intro x y h
    rcases le_total 0 x with hx | hx
    · exact Grib.rnd_mono 53 (by decide) hx h
    · rcases le_total 0 y with hy | hy
      · exact le_trans (rnd_nonpos 53 hx) (Grib.rnd_nonneg 53 hy)
      · have := Grib.rnd_mono 53 (by decide) (x := -y) (y := -x) (by linarith) (by linarith)
        rw [rnd_neg, rnd_neg] at this
        linarith
  · intro n hn
    have := Grib.rnd_exact 53 (by decide) n 0 hn
    simpa using this

/-- The value of a rounding, from its exponent and its digits. -/
theorem rnd_val (p : ℕ) (x : ℚ) (L m : ℤ) (h1 : (2 : ℚ) ^ L ≤ |x|) (h2 : |x| < (2 : ℚ) ^ (L + 1))
    (h3 : |x / 2 ^ (L - p + 1) - m| < 1 / 2) : rnd p x = m * 2 ^ (L - p + 1) := by
  have hx : 0 < |x| := lt_of_lt_of_le (Grib.two_zpow_pos L) h1
  have hL : Int.log 2 |x| = L := by
    have a1 : L ≤ Int.log 2 |x| := (Int.zpow_le_iff_le_log (b := 2) (by decide) hx).1 (by exact_mod_cast h1)
    have a2 : Int.log 2 |x| < L + 1 := (Int.lt_zpow_iff_log_lt (b := 2) (by decide) hx).1 (by exact_mod_cast h2)
    omega
  unfold rnd
  rw [hL]
  congr 1
  have b := Grib.roundEven_nearest (x / 2 ^ (L - p + 1)) m
  have c1 := abs_lt.1 h3
  have b' : |(Grib.roundEven (x / 2 ^ (L - p + 1)) : ℚ) - x / 2 ^ (L - p + 1)| < 1 / 2 :=
    lt_of_le_of_lt b (by rw [abs_sub_comm]; exact h3)
  have c2 := abs_lt.1 b'
  generalize Grib.roundEven (x / 2 ^ (L - p + 1)) = R at *
  have d1 : (R : ℚ) < m + 1 := by linarith
  have d2 : (m : ℚ) < R + 1 := by linarith
  have d1 : R < m + 1 := by exact_mod_cast d1
  have d2 : m < R + 1 := by exact_mod_cast d2
  rw [show R = m by omega]

theorem truncQ_neg (q : ℚ) : truncQ (-q) = -truncQ q := by
  unfold truncQ
  rcases lt_trichotomy q 0 with h | h | h
  · rw [if_pos (by linarith), if_neg (by linarith), Int.floor_neg]
  · subst h; simp
  · rw [if_neg (by linarith), if_pos h.le, Int.ceil_neg]

theorem centiF_neg (x : ℚ) : centiF (-x) = -centiF x := by
  unfold centiF
  rw [neg_mul, rnd_neg, truncQ_neg]

theorem degF_neg (n : Int) : degF (-n) = -degF n := by
  unfold degF
  push_cast
  rw [neg_div, rnd_neg]

/-! ## What is kept -/

theorem kept_nat (n : Int) (h0 : 0 < n) (hn : n ≤ 10 ^ 8) : centiF (degF n) = n ∨ centiF (degF n) = n - 1 := by
  have hq0 : (1 : ℚ) ≤ n := by exact_mod_cast h0
  have hqn : (n : ℚ) ≤ 10 ^ 8 := by exact_mod_cast hn
  have e1 := Grib.rnd_error 53 ((n : ℚ) / 100)
  rw [abs_of_nonneg (a := (n : ℚ) / 100) (by linarith)] at e1
  have c1 := abs_le.1 e1
  have hd : degF n = rnd 53 ((n : ℚ) / 100) := rfl
  rw [← hd] at c1
  generalize degF n = x at *
  have hx : 0 ≤ x := by
    have h := c1.1
    norm_num at h
    linarith
  have e2 := Grib.rnd_error 53 (x * 100)
  rw [abs_of_nonneg (a := x * 100) (by linarith)] at e2
  have c2 := abs_le.1 e2
  unfold centiF
  have hy0 := Grib.rnd_nonneg 53 (x := x * 100) (by linarith)
  generalize rnd 53 (x * 100) = y at *
  norm_num at c1 c2
  unfold truncQ
  rw [if_pos hy0]
  have a1 : n - 1 ≤ ⌊y⌋ := Int.le_floor.2 (by push_cast; linarith [c1.1, c2.1])
  have a2 : ⌊y⌋ < n + 1 := Int.floor_lt.2 (by push_cast; linarith [c1.2, c2.2])
  omega

/-- Whole hundredths: what is written for the float of `n` hundredths is `n` or the next integer towards zero. -/
theorem C105_hundredths (n : Int) (hn : |n| ≤ 10 ^ 8) : centiF (degF n) = n ∨ centiF (degF n) = n - Int.sign n := by
  rcases lt_trichotomy n 0 with h | rfl | h
  · have := kept_nat (-n) (by omega) (le_trans (neg_le_abs n) hn)
    rw [degF_neg, centiF_neg] at this
    rw [Int.sign_eq_neg_one_of_neg h]
    omega
  · left
    unfold degF centiF truncQ
    simp [Grib.rnd_zero]
  · rw [Int.sign_eq_one_of_pos h]
    exact kept_nat n h (le_trans (le_abs_self n) hn)

/-- Quarters of a degree are kept. -/
theorem C105_quarters (k : Int) (hk : |k| ≤ 10 ^ 8) : centiF (degF (25 * k)) = 25 * k := by
  have hd : degF (25 * k) = k * 2 ^ (-2 : ℤ) := by
    unfold degF
    rw [show (((25 * k : Int) : ℚ) / 100) = k * 2 ^ (-2 : ℤ) by push_cast; norm_num; ring]
    exact Grib.rnd_exact 53 (by decide) k (-2) (by norm_num at hk ⊢; linarith)
  have hc : rnd 53 (degF (25 * k) * 100) = ((25 * k : Int) : ℚ) := by
    rw [hd, show (k * 2 ^ (-2 : ℤ) * 100 : ℚ) = ((25 * k : Int) : ℚ) by push_cast; norm_num; ring]
    refine rnd_Rounding.int _ ?_
    rw [abs_mul]
    norm_num at hk ⊢
    linarith
  unfold centiF
  rw [hc]
  unfold truncQ
  rw [Int.floor_intCast, Int.ceil_intCast, ite_self]

theorem degF_6410 : degF 6410 = 2255318250894131 * 5 / 175921860444160 := by
  unfold degF
  rw [rnd_val 53 _ 6 4510636501788262 (by norm_num) (by norm_num) (by norm_num)]
  norm_num

/-- 64.10 degrees are written as 6409 hundredths. -/
theorem centiF_6410 : centiF (degF 6410) = 6409 := by
  rw [degF_6410]
  unfold centiF
  rw [rnd_val 53 _ 12 7047869534044159 (by norm_num) (by norm_num) (by norm_num)]
  unfold truncQ
  rw [if_pos (by norm_num), Int.floor_eq_iff]
  norm_num

theorem centiF_58 : centiF (degF 58) = 57 := by
  have : degF 58 = 5224175567749775 / 9007199254740992 := by
    unfold degF
    rw [rnd_val 53 _ (-1) 5224175567749775 (by norm_num) (by norm_num) (by norm_num)]
    norm_num
  rw [this]
  unfold centiF
  rw [rnd_val 53 _ 5 8162774324609023 (by norm_num) (by norm_num) (by norm_num)]
  unfold truncQ
  rw [if_pos (by norm_num), Int.floor_eq_iff]
  norm_num

theorem centiF_57 : centiF (degF 57) = 56 := by
  have : degF 57 = 5134103575202365 / 9007199254740992 := by
    unfold degF
    rw [rnd_val 53 _ (-1) 5134103575202365 (by norm_num) (by norm_num) (by norm_num)]
    norm_num
  rw [this]
  unfold centiF
  rw [rnd_val 53 _ 5 8022036836253695 (by norm_num) (by norm_num) (by norm_num)]
  unfold truncQ
  rw [if_pos (by norm_num), Int.floor_eq_iff]
  norm_num

/-! ## Files -/

/-- **C105 (partial).** A report given at whole hundredths of a degree is read at these hundredths or at the next ones towards
zero; at quarters of a degree it is read where it was given.  Missing: the exact hundredths in general, see
`C105_counterexample`. -/
theorem C105_surface_partial (env : NumEnv ρ ℚ) (hcenti : ∀ x, env.centi x = .ok (centiF x)) (lower : Text → Text) (names : List Text)
    (x : Entry ℚ (List ρ)) (o : SfObj) (ho : IsReport env lower names x o) (n m : Int) (hn : |n| ≤ 10 ^ 8) (hm : |m| ≤ 10 ^ 8)
    (hlat : x.lat = degF n) (hlon : x.lon = degF m) :
    (o.latitude = .coord n ∨ o.latitude = .coord (n - Int.sign n)) ∧ (o.longitude = .coord m ∨ o.longitude = .coord (m - Int.sign m)) ∧
      (25 ∣ n → o.latitude = .coord n) ∧ (25 ∣ m → o.longitude = .coord m) := by
  obtain ⟨a, h1, h2⟩ := ho.latitude
  obtain ⟨b, h3, h4⟩ := ho.longitude
  rw [hcenti, hlat] at h1
  rw [hcenti, hlon] at h3
  have h1 := Except.ok.inj h1
  have h3 := Except.ok.inj h3
  rw [h2, h4, ← h1, ← h3]
  have quarter : ∀ q : Int, |q| ≤ 10 ^ 8 → 25 ∣ q → centiF (degF q) = q := by
    rintro _ hq ⟨k, rfl⟩
    refine C105_quarters k (le_trans ?_ hq)
    rw [abs_mul, show |(25 : Int)| = 25 from rfl]
    have := abs_nonneg k
    linarith
  refine ⟨?_, ?_, fun h => by rw [quarter n hn h], fun h => by rw [quarter m hm h]⟩
  · rcases C105_hundredths n hn with h | h <;> rw [h] <;> simp
  · rcases C105_hundredths m hm with h | h <;> rw [h] <;> simp

/-- **C105 (partial)**, soundings. -/
theorem C105_sounding_partial (env : NumEnv ρ ℚ) (hcenti : ∀ x, env.centi x = .ok (centiF x)) (lower : Text → Text) (names : List Text)
    (x : Entry ℚ (List (List ρ))) (o : SnObj) (ho : IsSounding env lower names x o) (n m : Int) (hn : |n| ≤ 10 ^ 8) (hm : |m| ≤ 10 ^ 8)
    (hlat : x.lat = degF n) (hlon : x.lon = degF m) :
    (o.lat = .coord n ∨ o.lat = .coord (n - Int.sign n)) ∧ (o.lon = .coord m ∨ o.lon = .coord (m - Int.sign m)) ∧
      (25 ∣ n → o.lat = .coord n) ∧ (25 ∣ m → o.lon = .coord m) := by
  obtain ⟨a, h1, h2⟩ := ho.lat
  obtain ⟨b, h3, h4⟩ := ho.lon
  rw [hcenti, hlat] at h1
  rw [hcenti, hlon] at h3
  have h1 := Except.ok.inj h1
  have h3 := Except.ok.inj h3
  rw [h2, h4, ← h1, ← h3]
  have quarter : ∀ q : Int, |q| ≤ 10 ^ 8 → 25 ∣ q → centiF (degF q) = q := by
    rintro _ hq ⟨k, rfl⟩
    refine C105_quarters k (le_trans ?_ hq)
    rw [abs_mul, show |(25 : Int)| = 25 from rfl]
    have := abs_nonneg k
    linarith
  refine ⟨?_, ?_, fun h => by rw [quarter n hn h], fun h => by rw [quarter m hm h]⟩
  · rcases C105_hundredths n hn with h | h <;> rw [h] <;> simp
  · rcases C105_hundredths m hm with h | h <;> rw [h] <;> simp

/-- A host whose coordinates are floats. -/
def dblEnv : NumEnv F32 ℚ where
  isNaN _ := false
  missing := missingF32
  f32 x := .ok x
  f32_missing := rfl
  centi x := .ok (centiF x)
  leK x y := decide (x ≤ y)
  upper t := t
  ident _ := true
  parse _ := .error .valueError
  parse_valid := by intro _ _ h; cases h
  parseInt _ := .error .valueError

/-- One station at `n` and `m` hundredths of a degree. -/
def atDeg (n m : Int) : AddReq ℚ F32 :=
  ⟨[(txt "TMPF", 1)], some (degF n), some (degF m), .dt ⟨2020, 2, 29⟩ ⟨12, 0, 0, 0⟩, none⟩

/-- Its entry. -/
theorem atDeg_entry (n m : Int) : sfEntry dblEnv [txt "TMPF"] (atDeg n m) =
    some ⟨⟨2020, 2, 29⟩, ⟨12, 0, 0, 0⟩, [], -9999, degF n, degF m, -9999, [], [], 0, [1]⟩ := by
  rfl

theorem atDeg_entries (n m : Int) : [atDeg n m].filterMap (sfEntry dblEnv [txt "TMPF"]) =
    [⟨⟨2020, 2, 29⟩, ⟨12, 0, 0, 0⟩, [], -9999, degF n, degF m, -9999, [], [], 0, [1]⟩] := by
  rw [List.filterMap_cons_some (atDeg_entry n m)]; rfl

theorem centiF_range (q : Int) (hq : |q| ≤ 10 ^ 8) : inI32 (centiF (degF q)) := by
  have := abs_le.1 hq
  have hs : Int.sign q = 1 ∨ Int.sign q = 0 ∨ Int.sign q = -1 := by
    rcases lt_trichotomy q 0 with h | rfl | h
    · right; right; exact Int.sign_eq_neg_one_of_neg h
    · right; left; rfl
    · left; exact Int.sign_eq_one_of_pos h
  unfold inI32
  rcases C105_hundredths q hq with h | h <;> rw [h] <;> omega

theorem dblEnv_new : newBuilder dblEnv [txt "TMPF"] = .ok (⟨[txt "TMPF"], ⟨[]⟩, ⟨[]⟩, [], 0, 0, [], []⟩ : Builder ℚ (List F32)) := rfl

theorem atDeg_writable (n m : Int) (hn : |n| ≤ 10 ^ 8) (hm : |m| ≤ 10 ^ 8) :
    ∀ x ∈ [atDeg n m].filterMap (sfEntry dblEnv [txt "TMPF"]), x.Writable dblEnv := by
  rw [atDeg_entries]
  intro x hx
  rw [List.mem_singleton] at hx
  subst hx
  exact ⟨show inI32 (-9999) by decide, show inI32 (-9999) by decide, show inI32 0 by decide, ⟨_, rfl, centiF_range n hn⟩, _, rfl,
    centiF_range m hm⟩

theorem atDeg_headers (n m : Int) : headers ([atDeg n m].filterMap (sfEntry dblEnv [txt "TMPF"])) = 2 := by
  rw [atDeg_entries]; simp [headers]

theorem atDeg_size (n m : Int) (b0 : Builder ℚ (List F32)) (hb : b0.names = [txt "TMPF"]) (hnew : newBuilder dblEnv [txt "TMPF"] = .ok b0) :
    (run (addStation dblEnv) b0 [atDeg n m]).rows * (run (addStation dblEnv) b0 [atDeg n m]).columns * (1 + 3) ≤ 2 ^ 30 := by
  have hist := run_station (History.new hnew) [atDeg n m]
  rw [List.nil_append] at hist
  have hsum := hist.headers_eq
  rw [hb, atDeg_headers] at hsum
  generalize (run (addStation dblEnv) b0 [atDeg n m]).rows = a at *
  generalize (run (addStation dblEnv) b0 [atDeg n m]).columns = c at *
  have : a * c ≤ 2 * 2 := Nat.mul_le_mul (by omega) (by omega)
  omega

/-- Files with one station at any hundredths can be written and read. -/
theorem atDeg_output (n m : Int) (hn : |n| ≤ 10 ^ 8) (hm : |m| ≤ 10 ^ 8) :
    ∃ o, SurfaceOutput dblEnv id id [txt "TMPF"] [atDeg n m] [o] ∧
      o.latitude = .coord (centiF (degF n)) ∧ o.longitude = .coord (centiF (degF m)) := by
  have hns : SurfaceNames id [txt "TMPF"] := by
    constructor <;> decide +kernel
  have hleg : ∀ x ∈ [atDeg n m].filterMap (sfEntry dblEnv [txt "TMPF"]), x.Legible := by
    rw [atDeg_entries]
    intro x hx
    rw [List.mem_singleton] at hx
    subst hx
    constructor <;> first | decide +kernel | (dsimp only; decide +kernel)
  have hcap : headers ([atDeg n m].filterMap (sfEntry dblEnv [txt "TMPF"])) ≤ 32000 := by
    rw [atDeg_headers]; decide
  have hne : [atDeg n m].filterMap (sfEntry dblEnv [txt "TMPF"]) ≠ [] := by rw [atDeg_entries]; simp
  have hist := run_station (History.new dblEnv_new) [atDeg n m]
  rw [List.nil_append] at hist
  obtain ⟨bytes, hs⟩ := C14_saves dblEnv [txt "TMPF"] _ [atDeg n m] .little dblEnv_new hcap
    (fun x hx => ⟨(hleg x hx).date, (hleg x hx).clock⟩) (atDeg_writable n m hn hm) (fun _ _ v _ => ⟨v, rfl⟩)
    (atDeg_size n m _ rfl dblEnv_new)
  obtain ⟨g, out, es, h1, h2, h3, h4⟩ := C14_round_trip dblEnv id id [txt "TMPF"] _ [atDeg n m] .little .little bytes true dblEnv_new
    (by rw [hist.headers_eq]; exact hcap) hns hleg hne hs
  have hfin : final ([atDeg n m].filterMap (sfEntry dblEnv [txt "TMPF"])) =
      [⟨⟨2020, 2, 29⟩, ⟨12, 0, 0, 0⟩, [], -9999, degF n, degF m, -9999, [], [], 0, [1]⟩] := by
    rw [atDeg_entries]; simp [final]
  rw [show ((⟨[txt "TMPF"], ⟨[]⟩, ⟨[]⟩, [], 0, 0, [], []⟩ : Builder ℚ (List F32)).names) = [txt "TMPF"] from rfl, hfin] at h3
  have h5 := List.perm_singleton.1 h3
  subst h5
  cases h4 with
  | cons ho hrest =>
    cases hrest
    rename_i o
    obtain ⟨a, e1, e2⟩ := ho.latitude
    obtain ⟨b, e3, e4⟩ := ho.longitude
    refine ⟨o, ⟨hns, hleg, hcap, hne, ⟨_, _, _, _, bytes, g, true, dblEnv_new, rfl, hs, h1, h2⟩⟩, ?_, ?_⟩
    · rw [e2, ← Except.ok.inj e1]
    · rw [e4, ← Except.ok.inj e3]

/-- **C105 (deviation).** The hundredths are not kept: a station given at 64.10 degrees north is read at 64.09. -/
theorem C105_counterexample : ∃ o, SurfaceOutput dblEnv id id [txt "TMPF"] [atDeg 6410 (-2195)] [o] ∧ o.latitude = .coord 6409 := by
  obtain ⟨o, h1, h2, _⟩ := atDeg_output 6410 (-2195) (by norm_num) (by norm_num)
  exact ⟨o, h1, by rw [h2, centiF_6410]⟩

/-- Quarters of a degree in a file. -/
example : ∃ o, SurfaceOutput dblEnv id id [txt "TMPF"] [atDeg 6425 (-2150)] [o] ∧ o.latitude = .coord 6425 ∧ o.longitude = .coord (-2150) := by
  obtain ⟨o, h1, h2, h3⟩ := atDeg_output 6425 (-2150) (by norm_num) (by norm_num)
  exact ⟨o, h1, by rw [h2, show (6425 : Int) = 25 * 257 by norm_num, C105_quarters 257 (by norm_num)],
    by rw [h3, show (-2150 : Int) = 25 * (-86) by norm_num, C105_quarters (-86) (by norm_num)]⟩

end Gempak
