import Verif.Model.Grib
import Verif.Proof.GribBits
import Mathlib.Data.List.Sort
import Mathlib.Tactic.IntervalCases
import Mathlib.Tactic.Ring

/-! Helper lemmas: the packer refines the bit-string specification. -/

namespace Gempak.Grib
open Spec

theorem wordShift_eq (n k : Nat) : wordShift n k = (((32 - ((k + 1) * n) % 32) % 32 : Nat) : Int) := by
  unfold wordShift
  have : ((k : Int) + 1) * n = (((k + 1) * n : Nat) : Int) := by push_cast; rfl
  rw [this]
  generalize (k + 1) * n = m
  omega

theorem lendat_eq (n k : Nat) : lendat n k = wordCount n k := by
  unfold lendat wordCount
  generalize n * k = m
  simp only
  split <;> omega

theorem wordShift_start (n k : Nat) (hn1 : 1 ≤ n) (hn2 : n ≤ 31) :
    wordShift n k ≥ 32 - (n : Int) ↔ ∃ w, 32 * w / n = k := by
  rw [wordShift_eq]
  have hdiv : ∀ w, 32 * w / n = k ↔ n * k ≤ 32 * w ∧ 32 * w < n * k + n := by
    intro w
    rw [Nat.div_eq_iff (by omega), Nat.mul_comm n k]
    omega
  have hm : (k + 1) * n = n * k + n := by ring
  simp only [hdiv, hm]
  generalize n * k = p
  constructor
  · intro h
    refine ⟨(p + n) / 32, ?_⟩
    have h2 : (p + n) % 32 ≠ 0 := by
      intro h0
      rw [h0] at h
      simp at h
      omega
    have h3 : (32 - (p + n) % 32) % 32 = 32 - (p + n) % 32 := Nat.mod_eq_of_lt (by omega)
    rw [h3] at h
    omega
  · rintro ⟨w, hw⟩
    have h2 : (p + n) / 32 = w := by omega
    have h4 : (p + n) % 32 = p + n - 32 * w := by omega
    have h3 : (32 - (p + n) % 32) % 32 = 32 - (p + n) % 32 := Nat.mod_eq_of_lt (by omega)
    rw [h3]
    omega

theorem wordStarts_eq (n k : Nat) (hn1 : 1 ≤ n) (hn2 : n ≤ 31) :
    wordStarts n k = (List.range (wordCount n k)).map (fun w => 32 * w / n) := by
  apply List.Pairwise.eq_of_mem_iff (r := (· < ·))
  · exact List.Pairwise.filter _ List.pairwise_lt_range
  · rw [List.pairwise_map]
    apply List.Pairwise.imp _ List.pairwise_lt_range
    intro a b h
    interval_cases n <;> omega
  · intro x
    simp only [wordStarts, List.mem_filter, List.mem_range, decide_eq_true_eq, List.mem_map,
      wordShift_start n x hn1 hn2]
    constructor
    · rintro ⟨h, w, hw⟩
      refine ⟨w, ?_, hw⟩
      unfold wordCount
      interval_cases n <;> omega
    · rintro ⟨w, h, hw⟩
      refine ⟨?_, w, hw⟩
      unfold wordCount at h
      interval_cases n <;> omega

theorem rowBounds_length (k : Nat) (l : List Nat) : (rowBounds k l).length = l.length := by
  induction l using rowBounds.induct <;> simp_all [rowBounds]

theorem rowBounds_getElem (k : Nat) (l : List Nat) (w : Nat) (hw : w < l.length) :
    (rowBounds k l)[w]'(by rw [rowBounds_length]; exact hw) =
      (l[w], if h : w + 1 < l.length then (l[w + 1] : Int) else (k : Int) - 1) := by
  induction l using rowBounds.induct generalizing w with
  | case1 => simp at hw
  | case2 a => simp at hw; subst hw; simp [rowBounds]
  | case3 a b l ih =>
    cases w with
    | zero => simp [rowBounds]
    | succ w =>
      have := ih w (by simpa using hw)
      simpa [rowBounds] using this

theorem maxOf_spec (l : List Int) (m : Int) (h : maxOf l = .ok m) : m ∈ l ∧ ∀ x ∈ l, x ≤ m := by
  cases l with
  | nil => simp [maxOf] at h
  | cons a l =>
    simp only [maxOf, Except.ok.injEq] at h
    subst h
    have key : ∀ (l : List Int) (a : Int), (l.foldl max a = a ∨ l.foldl max a ∈ l) ∧ a ≤ l.foldl max a ∧
        ∀ x ∈ l, x ≤ l.foldl max a := by
      intro l
      induction l with
      | nil => simp
      | cons b l ih =>
        intro a
        obtain ⟨h1, h2, h3⟩ := ih (max a b)
        simp only [List.foldl_cons, List.mem_cons]
        refine ⟨?_, by omega, ?_⟩
        · rcases h1 with h1 | h1
          · rcases (by omega : max a b = a ∨ max a b = b) with h | h <;> rw [h] at h1 ⊢ <;> simp [h1]
          · right; right; exact h1
        · rintro x (rfl | hx)
          · omega
          · exact h3 x hx
    obtain ⟨h1, h2, h3⟩ := key l a
    constructor
    · rcases h1 with h1 | h1
      · rw [h1]; simp
      · simp [h1]
    · intro x hx
      rcases List.mem_cons.mp hx with rfl | hx
      · exact h2
      · exact h3 x hx

theorem diffs_length (l : List Nat) : (diffs l).length = l.length - 1 := by
  induction l using diffs.induct with
  | case1 a b l ih => simp [diffs, ih]
  | case2 l h =>
    rcases l with _ | ⟨a, _ | ⟨b, l⟩⟩
    · simp [diffs]
    · simp [diffs]
    · exact absurd rfl (h a b l)

theorem diffs_getElem (l : List Nat) (w : Nat) (hw : w < (diffs l).length) :
    (diffs l)[w] = (l[w + 1]'(by rw [diffs_length] at hw; omega) : Int) -
      (l[w]'(by rw [diffs_length] at hw; omega) : Int) := by
  induction l using diffs.induct generalizing w with
  | case1 a b l ih =>
    cases w with
    | zero => simp [diffs]
    | succ w =>
      have := ih w (by simpa [diffs] using hw)
      simpa [diffs] using this
  | case2 l h =>
    rcases l with _ | ⟨a, _ | ⟨b, l⟩⟩
    · simp [diffs] at hw
    · simp [diffs] at hw
    · exact absurd rfl (h a b l)

theorem rowFrom_minus_one (n : Nat) (mx : Int) (r : List Nat) (steps : Nat) :
    ((rowFrom n mx steps (-1) 0).map (piece r)).sum = 0 := by
  induction steps with
  | zero => simp [rowFrom, piece]
  | succ s ih => simp [rowFrom, piece] at ih ⊢; exact ih

/-- Partial value of output word `w` after element `e`. -/
def partialV (n : Nat) (r : List Nat) (w e : Nat) : Nat :=
  if n * (e + 1) ≤ 32 * (w + 1) then horner n (r.take (e + 1)) * 2 ^ (32 * (w + 1) - n * (e + 1))
  else horner n (r.take (e + 1)) / 2 ^ (n * (e + 1) - 32 * (w + 1))

/-- Unwrapped contribution of element `e` to output word `w`. -/
def pieceN (n : Nat) (r : List Nat) (w e : Nat) : Nat :=
  if n * (e + 1) ≤ 32 * (w + 1) then r.getD e 0 * 2 ^ (32 * (w + 1) - n * (e + 1))
  else r.getD e 0 / 2 ^ (n * (e + 1) - 32 * (w + 1))

theorem partialV_step (n : Nat) (r : List Nat) (w e : Nat) (he : e + 1 < r.length)
    (hj : n * (e + 1) ≤ 32 * (w + 1)) :
    partialV n r w e + pieceN n r w (e + 1) = partialV n r w (e + 1) := by
  unfold partialV pieceN
  rw [if_pos hj, horner_take_succ n r (e + 1) he, List.getD_eq_getElem _ _ he]
  generalize horner n (List.take (e + 1) r) = H
  have hm : n * (e + 1 + 1) = n * (e + 1) + n := by ring
  rw [hm]
  generalize n * (e + 1) = m at *
  split
  · rename_i h
    rw [Nat.add_mul, Nat.mul_assoc, ← Nat.pow_add]
    congr 3
    omega
  · rename_i h
    have hsplit : 2 ^ n = 2 ^ (32 * (w + 1) - m) * 2 ^ (m + n - 32 * (w + 1)) := by
      rw [← Nat.pow_add]; congr 1; omega
    rw [hsplit, ← Nat.mul_assoc, Nat.add_comm (H * _ * _), Nat.add_mul_div_right _ _ (Nat.two_pow_pos _)]
    omega

theorem pieceN_lt (n : Nat) (r : List Nat) (hr : ∀ x ∈ r, x < 2 ^ n) (w e : Nat) (he : e < r.length)
    (hj : n * e ≤ 32 * (w + 1)) :
    (n * (e + 1) ≤ 32 * (w + 1) → pieceN n r w e + 2 ^ (32 * (w + 1) - n * (e + 1)) ≤ 2 ^ (32 * (w + 1) - n * e)) ∧
    pieceN n r w e < 2 ^ (32 * (w + 1) - n * e) := by
  have hx : r.getD e 0 < 2 ^ n := by
    rw [List.getD_eq_getElem _ _ he]; exact hr _ (List.getElem_mem _)
  unfold pieceN
  generalize r.getD e 0 = x at *
  have hm : n * (e + 1) = n * e + n := by ring
  rw [hm]
  generalize n * e = m at *
  constructor
  · intro h
    rw [if_pos h, show 32 * (w + 1) - m = n + (32 * (w + 1) - (m + n)) by omega, Nat.pow_add]
    have : (x + 1) * 2 ^ (32 * (w + 1) - (m + n)) ≤ 2 ^ n * 2 ^ (32 * (w + 1) - (m + n)) :=
      Nat.mul_le_mul_right _ hx
    rw [Nat.add_mul] at this
    omega
  · split
    · rename_i h
      rw [show 32 * (w + 1) - m = n + (32 * (w + 1) - (m + n)) by omega, Nat.pow_add]
      exact Nat.mul_lt_mul_of_pos_right hx (Nat.two_pow_pos _)
    · rename_i h
      apply Nat.div_lt_of_lt_mul
      rw [← Nat.pow_add]
      refine lt_of_lt_of_eq hx ?_
      congr 1; omega

/-- The shift of element `e` relative to word `w`. -/
def relShift (n w e : Nat) : Int := 32 * ((w : Int) + 1) - n * ((e : Int) + 1)

theorem piece_eq (n : Nat) (r : List Nat) (w e : Nat) :
    piece r ((e : Int), relShift n w e) =
      if relShift n w e > 0 then wrapI32 (pieceN n r w e : Nat) else (pieceN n r w e : Int) := by
  have hrel : relShift n w e = (32 * (w + 1) : Nat) - ((n * (e + 1) : Nat) : Int) := by
    unfold relShift; push_cast; ring
  unfold piece pieceN
  rw [hrel]
  generalize n * (e + 1) = m
  simp only [Int.natCast_nonneg, ge_iff_le, if_true, Int.toNat_natCast]
  by_cases h1 : m < 32 * (w + 1)
  · rw [if_pos (by omega), if_pos (by omega), if_pos (by omega)]
    congr 3
    congr 1; omega
  · rw [if_neg (by omega), if_neg (by omega)]
    by_cases h2 : m ≤ 32 * (w + 1)
    · rw [if_pos h2]
      have h3 : m = 32 * (w + 1) := by omega
      subst h3
      simp
    · rw [if_neg h2]
      congr 3
      omega

theorem wrapI32_small (x : Nat) (h : x < 2 ^ 31) : wrapI32 (x : Int) = x := by
  apply toI32_toU32; unfold inI32; omega

theorem rowFrom_sum (n : Nat) (r : List Nat) (hr : ∀ x ∈ r, x < 2 ^ n) (w mx : Nat) (hmx : mx < r.length)
    (steps : Nat) : ∀ e : Nat, e + 1 ≤ mx → n * (e + 1) ≤ 32 * (w + 1) → 32 * (w + 1) - n * (e + 1) ≤ 31 →
    (∀ e' < mx, n * (e' + 1) ≤ 32 * (w + 1)) →
    ∃ R : Nat, ((rowFrom n mx steps ((e + 1 : Nat) : Int) (relShift n w (e + 1))).map (piece r)).sum = (R : Int) ∧
      R < 2 ^ (32 * (w + 1) - n * (e + 1)) ∧
      partialV n r w e + R = partialV n r w (min mx (e + 1 + steps)) := by
  induction steps with
  | zero =>
    intro e he hj hj31 hall
    obtain ⟨_, hlt⟩ := pieceN_lt n r hr w (e + 1) (by omega) hj
    refine ⟨pieceN n r w (e + 1), ?_, hlt, ?_⟩
    · simp only [rowFrom, List.map_cons, List.map_nil, List.sum_cons, List.sum_nil, Int.add_zero]
      rw [piece_eq]
      split
      · apply wrapI32_small
        exact lt_of_lt_of_le hlt (Nat.pow_le_pow_right (by decide) hj31)
      · rfl
    · rw [show min mx (e + 1 + 0) = e + 1 by omega]
      exact partialV_step n r w e (by omega) hj
  | succ steps ih =>
    intro e he hj hj31 hall
    obtain ⟨hle, hlt⟩ := pieceN_lt n r hr w (e + 1) (by omega) hj
    have hp : piece r (((e + 1 : Nat) : Int), relShift n w (e + 1)) = (pieceN n r w (e + 1) : Int) := by
      rw [piece_eq]
      split
      · apply wrapI32_small
        exact lt_of_lt_of_le hlt (Nat.pow_le_pow_right (by decide) hj31)
      · rfl
    have hstep := partialV_step n r w e (by omega) hj
    simp only [rowFrom, List.map_cons, List.sum_cons, hp]
    by_cases hlast : mx = e + 1
    · rw [if_pos (by left; omega), rowFrom_minus_one]
      refine ⟨pieceN n r w (e + 1), by simp, hlt, ?_⟩
      rw [show min mx (e + 1 + (steps + 1)) = e + 1 by omega]
      exact hstep
    · have hj' := hall (e + 1) (by omega)
      rw [if_neg (by omega)]
      obtain ⟨R, h1, h2, h3⟩ := ih (e + 1) (by omega) hj'
        (by
          have : n * (e + 1) ≤ n * (e + 1 + 1) := Nat.mul_le_mul_left _ (by omega)
          omega) hall
      refine ⟨pieceN n r w (e + 1) + R, ?_, ?_, ?_⟩
      · have hrel : relShift n w (e + 1) - n = relShift n w (e + 1 + 1) := by unfold relShift; push_cast; ring
        rw [hrel, show (((e + 1 : Nat) : Int) + 1) = ((e + 1 + 1 : Nat) : Int) by push_cast; rfl, h1]
        push_cast; rfl
      · have := hle hj'
        omega
      · rw [← Nat.add_assoc, hstep, h3]
        congr 1
        omega

theorem toI32_add_low (a j R : Nat) (hj : j ≤ 31) (hR : R < 2 ^ j) :
    toI32 (a * 2 ^ j % 4294967296) + (R : Int) = toI32 ((a * 2 ^ j + R) % 4294967296) := by
  have h32 : 4294967296 = 2 ^ (32 - j) * 2 ^ j := by
    rw [← Nat.pow_add]; rw [show 32 - j + j = 32 by omega]
  have h31 : 2147483648 = 2 ^ (31 - j) * 2 ^ j := by
    rw [← Nat.pow_add]; rw [show 31 - j + j = 31 by omega]
  have hm : a * 2 ^ j % 4294967296 = (a % 2 ^ (32 - j)) * 2 ^ j := by
    rw [h32, Nat.mul_mod_mul_right]
  have hb : a % 2 ^ (32 - j) < 2 ^ (32 - j) := Nat.mod_lt _ (Nat.two_pow_pos _)
  have hb' : (a % 2 ^ (32 - j) + 1) * 2 ^ j ≤ 4294967296 := by
    rw [h32]; exact Nat.mul_le_mul_right _ hb
  rw [Nat.add_mul] at hb'
  have hsum : (a * 2 ^ j + R) % 4294967296 = (a % 2 ^ (32 - j)) * 2 ^ j + R := by
    rw [Nat.add_mod, hm, Nat.mod_eq_of_lt (a := R) (by omega), Nat.mod_eq_of_lt (by omega)]
  rw [hm, hsum]
  generalize hb2 : a % 2 ^ (32 - j) = b at *
  have key : b * 2 ^ j < 2147483648 ↔ b * 2 ^ j + R < 2147483648 := by
    constructor
    · intro h
      rw [h31] at h
      have hlt := Nat.lt_of_mul_lt_mul_right h
      have : (b + 1) * 2 ^ j ≤ 2147483648 := by rw [h31]; exact Nat.mul_le_mul_right _ hlt
      rw [Nat.add_mul] at this
      omega
    · omega
  unfold toI32
  by_cases h : b * 2 ^ j < 2147483648
  · rw [if_pos h, if_pos (key.mp h)]; push_cast; rfl
  · rw [if_neg h, if_neg (fun h' => h (key.mpr h'))]; push_cast; ring

/-- Value of one packed word in terms of `partialV`. -/
theorem row_value (n : Nat) (hn1 : 1 ≤ n) (r : List Nat) (hr : ∀ x ∈ r, x < 2 ^ n) (hn2 : n ≤ 31) (w st mx : Nat)
    (hmx : mx < r.length) (hst : st ≤ mx) (hstw : st = 32 * w / n)
    (hall : ∀ e' < mx, n * (e' + 1) ≤ 32 * (w + 1)) (steps : Nat) :
    ((rowFrom n mx steps (st : Int) (wordShift n st)).map (piece r)).sum =
      toI32 (partialV n r w (min mx (st + steps)) % 4294967296) := by
  have hs1 : n * st ≤ 32 * w := by subst hstw; exact Nat.mul_div_le _ _
  have hs2 : 32 * w < n * (st + 1) := by
    subst hstw; exact Nat.lt_mul_div_succ _ (by omega)
  have hm : n * (st + 1) = n * st + n := by ring
  have hj : n * (st + 1) ≤ 32 * (w + 1) := by omega
  have hshift : wordShift n st = relShift n w st := by
    rw [wordShift_eq]
    have : relShift n w st = (32 * (w + 1) : Nat) - ((n * (st + 1) : Nat) : Int) := by
      unfold relShift; push_cast; ring
    rw [this, Nat.mul_comm (st + 1) n]
    generalize n * (st + 1) = m at *
    omega
  have hbase : ∃ H, partialV n r w st = H * 4294967296 + r.getD st 0 * 2 ^ (32 * (w + 1) - n * (st + 1)) := by
    unfold partialV
    rw [if_pos hj, horner_take_succ n r st (by omega), List.getD_eq_getElem _ _ (by omega), Nat.add_mul]
    refine ⟨horner n (List.take st r) * 2 ^ (n + (32 * (w + 1) - n * (st + 1)) - 32), ?_⟩
    rw [show (4294967296 : Nat) = 2 ^ 32 by norm_num, Nat.mul_assoc, Nat.mul_assoc, ← Nat.pow_add, ← Nat.pow_add,
      show n + (32 * (w + 1) - n * (st + 1)) - 32 + 32 = n + (32 * (w + 1) - n * (st + 1)) by omega]
  obtain ⟨H, hH⟩ := hbase
  have hp : piece r ((st : Int), relShift n w st) =
      toI32 (r.getD st 0 * 2 ^ (32 * (w + 1) - n * (st + 1)) % 4294967296) := by
    rw [piece_eq]
    have hpn : pieceN n r w st = r.getD st 0 * 2 ^ (32 * (w + 1) - n * (st + 1)) := by
      unfold pieceN; rw [if_pos hj]
    rw [hpn]
    split
    · unfold wrapI32 toU32
      congr 1
    · rename_i h
      have h0 : 32 * (w + 1) - n * (st + 1) = 0 := by
        have : relShift n w st = (32 * (w + 1) : Nat) - ((n * (st + 1) : Nat) : Int) := by
          unfold relShift; push_cast; ring
        rw [this] at h; omega
      rw [h0]
      have hx : r.getD st 0 < 2 ^ n := by
        rw [List.getD_eq_getElem _ _ (by omega)]; exact hr _ (List.getElem_mem _)
      have : 2 ^ n ≤ 2 ^ 31 := Nat.pow_le_pow_right (by decide) hn2
      unfold toI32
      rw [Nat.mod_eq_of_lt (by omega), if_pos (by omega)]
  rw [hshift]
  have hj31 : 32 * (w + 1) - n * (st + 1) ≤ 31 := by omega
  cases steps with
  | zero =>
    simp only [rowFrom, List.map_cons, List.map_nil, List.sum_cons, List.sum_nil, Int.add_zero, hp]
    rw [show min mx (st + 0) = st by omega, hH, Nat.add_comm (H * _), Nat.add_mul_mod_self_right]
  | succ steps =>
    simp only [rowFrom, List.map_cons, List.sum_cons, hp]
    by_cases hlast : mx = st
    · rw [if_pos (by left; omega), rowFrom_minus_one, Int.add_zero,
        show min mx (st + (steps + 1)) = st by omega, hH, Nat.add_comm (H * _), Nat.add_mul_mod_self_right]
    · rw [if_neg (by omega)]
      obtain ⟨R, h1, h2, h3⟩ := rowFrom_sum n r hr w mx hmx steps st (by omega) hj hj31 hall
      have hrel : relShift n w st - n = relShift n w (st + 1) := by unfold relShift; push_cast; ring
      rw [hrel, show ((st : Int) + 1) = ((st + 1 : Nat) : Int) by push_cast; rfl, h1,
        toI32_add_low _ _ _ hj31 h2, show min mx (st + (steps + 1)) = min mx (st + 1 + steps) by omega, ← h3, hH,
        Nat.add_assoc, Nat.add_comm (H * _), Nat.add_mul_mod_self_right]

theorem partialV_word (n : Nat) (r : List Nat) (hr : ∀ x ∈ r, x < 2 ^ n) (w e : Nat) (he : e < r.length)
    (hw : w < wordCount n r.length)
    (h : 32 * (w + 1) ≤ n * (e + 1) ∨ (e + 1 = r.length ∧ w + 1 = wordCount n r.length)) :
    partialV n r w e % 4294967296 = wordAt (bitString n r) w := by
  have hL : n * r.length ≤ 32 * wordCount n r.length := by unfold wordCount; omega
  rw [wordAt_bitString n r hr w hw, show (4294967296 : Nat) = 2 ^ 32 by norm_num]
  congr 1
  unfold partialV
  rcases h with h | ⟨h, h'⟩
  · have hle : n * (e + 1) ≤ n * r.length := Nat.mul_le_mul_left _ he
    have hsub : n * (r.length - (e + 1)) = n * r.length - n * (e + 1) := Nat.mul_sub _ _ _
    have hrhs : horner n r * 2 ^ (32 * wordCount n r.length - n * r.length) / 2 ^ (32 * (wordCount n r.length - 1 - w))
        = horner n r / 2 ^ (n * r.length - 32 * (w + 1)) := by
      rw [show 32 * (wordCount n r.length - 1 - w) =
        (32 * wordCount n r.length - n * r.length) + (n * r.length - 32 * (w + 1)) by omega, Nat.pow_add,
        Nat.mul_comm (horner n r), Nat.mul_div_mul_left _ _ (Nat.two_pow_pos _)]
    rw [hrhs, horner_take n r hr (e + 1), hsub]
    split
    · have : n * (e + 1) = 32 * (w + 1) := by omega
      rw [this, Nat.sub_self, Nat.pow_zero, Nat.mul_one]
    · rw [Nat.div_div_eq_div_mul, ← Nat.pow_add]
      congr 2
      omega
  · rw [h, ← h', List.take_length, if_pos (by omega), show 32 * (w + 1 - 1 - w) = 0 by omega, Nat.pow_zero, Nat.div_one]

/-- Refinement of the packer to the bit string specification. -/
theorem packWords_ok (n : Nat) (hn1 : 1 ≤ n) (hn2 : n ≤ 31) (r : List Nat) (hr : ∀ x ∈ r, x < 2 ^ n)
    (hL : 2 ≤ wordCount n r.length) : packWords n r = .ok (packed n r) := by
  have hstarts := wordStarts_eq n r.length hn1 hn2
  have hlen : (wordStarts n r.length).length = wordCount n r.length := by rw [hstarts]; simp
  have hmax : ∃ m, maxOf (diffs (wordStarts n r.length)) = .ok m := by
    cases hd : diffs (wordStarts n r.length) with
    | nil =>
      have := diffs_length (wordStarts n r.length)
      rw [hd, hlen] at this; simp at this; omega
    | cons a l => exact ⟨_, rfl⟩
  obtain ⟨m, hm⟩ := hmax
  obtain ⟨hmem, hub⟩ := maxOf_spec _ _ hm
  have hdl : (diffs (wordStarts n r.length)).length = wordCount n r.length - 1 := by
    rw [diffs_length, hlen]
  have hdiff : ∀ w (hw : w < (diffs (wordStarts n r.length)).length),
      (diffs (wordStarts n r.length))[w] = ((32 * (w + 1) / n : Nat) : Int) - ((32 * w / n : Nat) : Int) := by
    intro w hw
    rw [diffs_getElem]
    simp [hstarts]
  have hub' : ∀ w, w + 1 < wordCount n r.length →
      ((32 * (w + 1) / n : Nat) : Int) - ((32 * w / n : Nat) : Int) ≤ m := by
    intro w hw
    rw [← hdiff w (by omega)]
    exact hub _ (List.getElem_mem _)
  obtain ⟨w0, hw0, hmw0⟩ := List.getElem_of_mem hmem
  rw [hdiff w0 hw0] at hmw0
  have hL1 : n * r.length ≤ 32 * wordCount n r.length := by unfold wordCount; omega
  have hL2 : 32 * wordCount n r.length < n * r.length + 32 := by unfold wordCount; omega
  unfold packWords
  simp only [nInputWords, hm, bind, Except.bind, hlen, lendat_eq, ne_eq, not_true_eq_false, if_false]
  congr 1
  apply List.ext_getElem
  · simp [rowBounds_length, hlen, packed]
  · intro w h1 h2
    have hw : w < wordCount n r.length := by simpa [packed] using h2
    simp only [List.getElem_map, packed, List.getElem_range]
    rw [rowBounds_getElem _ _ _ (by rw [hlen]; exact hw)]
    simp only
    have hst : (wordStarts n r.length)[w]'(by rw [hlen]; exact hw) = 32 * w / n := by simp [hstarts]
    rw [hst]
    generalize hK : r.length = K at *
    have hst2 : 32 * w / n < K := by
      apply Nat.div_lt_of_lt_mul; omega
    generalize hmx : (if h : w + 1 < (wordStarts n K).length then
      (((wordStarts n K)[w + 1]'h : Nat) : Int) else (K : Int) - 1) = mx
    have hmxN : ∃ mxN : Nat, mx = (mxN : Int) ∧ mxN < r.length ∧ 32 * w / n ≤ mxN ∧
        (∀ e' < mxN, n * (e' + 1) ≤ 32 * (w + 1)) ∧
        ((w + 1 < wordCount n K ∧ mxN = 32 * (w + 1) / n) ∨ (w + 1 = wordCount n K ∧ mxN = K - 1)) := by
      by_cases hlw : w + 1 < wordCount n K
      · rw [dif_pos (by rw [hlen]; exact hlw)] at hmx
        refine ⟨32 * (w + 1) / n, ?_, ?_, ?_, ?_, Or.inl ⟨hlw, rfl⟩⟩
        · rw [← hmx]; simp [hstarts]
        · rw [hK]; apply Nat.div_lt_of_lt_mul; omega
        · apply Nat.div_le_div_right; omega
        · intro e' he'
          have : e' + 1 ≤ 32 * (w + 1) / n := he'
          exact le_trans (Nat.mul_le_mul_left _ this) (Nat.mul_div_le _ _)
      · rw [dif_neg (by rw [hlen]; exact hlw)] at hmx
        have hKpos : 1 ≤ K := by omega
        refine ⟨K - 1, by omega, by omega, by omega, ?_, Or.inr ⟨by omega, rfl⟩⟩
        intro e' he'
        have : n * (e' + 1) ≤ n * K := Nat.mul_le_mul_left _ (by omega)
        omega
    obtain ⟨mxN, rfl, hmxlt, hstmx, hall, hcase⟩ := hmxN
    have hrow := row_value n hn1 r hr hn2 w (32 * w / n) mxN hmxlt hstmx rfl hall
      ((m + if 32 % n ≠ 0 then 1 else 0).toNat - 1)
    simp only [ne_eq] at hrow
    rw [hrow]
    congr 1
    apply partialV_word n r hr w _ (by omega) (by rw [hK]; exact hw)
    rw [hK]
    have hub1 : ((32 * (0 + 1) / n : Nat) : Int) - ((32 * 0 / n : Nat) : Int) ≤ m := hub' 0 (by omega)
    have hubw := hub' w
    clear hub' hub hdiff hrow hall hstarts hmx
    rcases hcase with ⟨hlw, rfl⟩ | ⟨hlw, rfl⟩
    · left
      have := hubw hlw
      interval_cases n <;> simp <;> omega
    · right
      refine ⟨?_, hlw⟩
      interval_cases n <;> simp at hub1 ⊢ <;> omega

/-- With fewer than two words the packer raises `ValueError` (`np.diff(..).max()` of an empty array). -/
theorem packWords_error (n : Nat) (hn1 : 1 ≤ n) (hn2 : n ≤ 31) (r : List Nat)
    (hL : wordCount n r.length < 2) : packWords n r = .error .valueError := by
  have hstarts := wordStarts_eq n r.length hn1 hn2
  have hlen : (wordStarts n r.length).length = wordCount n r.length := by rw [hstarts]; simp
  have hd : diffs (wordStarts n r.length) = [] := by
    apply List.eq_nil_of_length_eq_zero
    rw [diffs_length, hlen]; omega
  simp [packWords, nInputWords, hd, maxOf, bind, Except.bind]

end Gempak.Grib
