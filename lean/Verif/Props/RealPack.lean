import Mathlib.Tactic.Ring
import Verif.Model.RealPack

/-!
# C30, C31, C33: packed reals and word shifts
-/

namespace Gempak

/-! ## C33 -/

/-- Fortran `ISHFT` on a 32-bit word given as a natural number. -/
def Spec.ishft (w : Nat) (shift : Int) : Nat :=
  if 0 ≤ shift then w * 2 ^ shift.toNat % 4294967296 else w / 2 ^ (-shift).toNat

theorem toU32_lt (i : Int) : toU32 i < 4294967296 := by unfold toU32; omega

theorem toU32_toI32 {n : Nat} (h : n < 4294967296) : toU32 (toI32 n) = n := by
  unfold toU32 toI32; split <;> omega

theorem toU32_of_nonneg {i : Int} (h0 : 0 ≤ i) (h1 : i < 4294967296) : toU32 i = i.toNat := by
  unfold toU32; omega

theorem toU32_natCast {n : Nat} (h : n < 4294967296) : toU32 (n : Int) = n := by
  rw [toU32_of_nonneg (by omega) (by omega), Int.toNat_natCast]

theorem toU32_mul_pow (i : Int) (s : Nat) : toU32 (i * 2 ^ s) = toU32 i * 2 ^ s % 4294967296 := by
  unfold toU32
  have h1 : (i * 2 ^ s) % 4294967296 = (i % 4294967296 * 2 ^ s) % 4294967296 := by
    conv_lhs => rw [← Int.emod_add_mul_ediv i 4294967296, Int.add_mul, Int.mul_assoc, Int.add_mul_emod_self_left]
  rw [h1]
  obtain ⟨n, hn⟩ := Int.eq_ofNat_of_zero_le (Int.emod_nonneg i (show (4294967296 : Int) ≠ 0 by decide))
  rw [hn]
  have : ((n : Int) * 2 ^ s) % 4294967296 = ((n * 2 ^ s % 4294967296 : Nat) : Int) := by push_cast; rfl
  rw [this, Int.toNat_natCast]
  congr 1

theorem ishift_nonneg_div (i : Int) (h : 0 ≤ i) (s : Nat) : i / 2 ^ s = ((i.toNat / 2 ^ s : Nat) : Int) := by
  obtain ⟨n, rfl⟩ := Int.eq_ofNat_of_zero_le h
  simp

/-- C33: the pattern of the result is the 32-bit logical shift of the pattern of the argument, for signed and unsigned
words alike. -/
theorem C33_ishift (i shift : Int) (h0 : -2147483648 ≤ i) (h1 : i < 4294967296) :
    toU32 (ishift i shift) = Spec.ishft (toU32 i) shift := by
  unfold ishift Spec.ishft
  by_cases hp : 0 < shift
  · rw [if_pos hp, if_pos (by omega), toU32_toI32 (toU32_lt _), toU32_mul_pow]
  · rw [if_neg hp]
    by_cases hn : shift < 0
    · rw [if_pos hn, if_neg (show ¬ 0 ≤ shift by omega)]
      have hle : toU32 i / 2 ^ (-shift).toNat < 4294967296 :=
        Nat.lt_of_le_of_lt (Nat.div_le_self _ _) (toU32_lt i)
      split
      · exact toU32_natCast hle
      · rename_i hi
        rw [ishift_nonneg_div i (by omega)]
        rw [toU32_of_nonneg (i := i) (by omega) h1] at hle ⊢
        exact toU32_natCast hle
    · have : shift = 0 := by omega
      subst this
      rw [if_neg (by omega), if_pos (by omega)]
      simp only [Int.toNat_zero, Nat.pow_zero, Nat.mul_one]
      exact (Nat.mod_eq_of_lt (toU32_lt i)).symm

/-- C33: shifts by 32 or more give zero. -/
theorem C33_far (i shift : Int) (h0 : -2147483648 ≤ i) (h1 : i < 4294967296) (hs : 32 ≤ shift ∨ shift ≤ -32) :
    ishift i shift = 0 := by
  have h := C33_ishift i shift h0 h1
  have hz : Spec.ishft (toU32 i) shift = 0 := by
    unfold Spec.ishft
    rcases hs with hs | hs
    · rw [if_pos (by omega), show shift.toNat = 32 + (shift.toNat - 32) by omega, Nat.pow_add, ← Nat.mul_assoc]
      rw [show toU32 i * 2 ^ 32 * 2 ^ (shift.toNat - 32) = 4294967296 * (toU32 i * 2 ^ (shift.toNat - 32)) by ring]
      exact Nat.mul_mod_right _ _
    · rw [if_neg (by omega)]
      apply Nat.div_eq_of_lt
      have : 2 ^ 32 ≤ 2 ^ (-shift).toNat := Nat.pow_le_pow_right (by decide) (by omega)
      have := toU32_lt i
      omega
  rw [hz] at h
  unfold ishift at h ⊢
  rcases hs with hs | hs
  · rw [if_pos (by omega)] at h ⊢
    rw [toU32_toI32 (toU32_lt _)] at h
    rw [h]; rfl
  · rw [if_neg (by omega), if_pos (by omega)] at h ⊢
    have hle : toU32 i / 2 ^ (-shift).toNat < 4294967296 := Nat.lt_of_le_of_lt (Nat.div_le_self _ _) (toU32_lt i)
    by_cases hi : i < 0
    · rw [if_pos hi] at h ⊢
      rw [toU32_natCast hle] at h
      rw [h]; rfl
    · rw [if_neg hi] at h ⊢
      rw [ishift_nonneg_div i (by omega)] at h ⊢
      rw [toU32_of_nonneg (i := i) (by omega) h1] at hle
      rw [toU32_natCast hle] at h
      rw [h]; rfl

example : ishift (-1) (-28) = 15 ∧ ishift 3 31 = -2147483648 ∧ ishift 5 (-40) = 0 := by decide

/-! ## C30 -/

/-- A record as one number: word `j` contributes its 32 bits from bit `32 * j` on. -/
def Spec.recordNumber (ws : List Int) : Nat := ws.foldr (fun w acc => toU32 w + 4294967296 * acc) 0

/-- The field of `bits` bits at position `pos`. -/
def Spec.bitField (ws : List Int) (pos bits : Nat) : Nat := recordNumber ws / 2 ^ pos % 2 ^ bits

/-- The decoded value. -/
def Spec.decoded (ws : List Int) (pos : Nat) (a : RealAttr) : RealVal :=
  if bitField ws pos a.bits = 2 ^ a.bits - 1 then none else some ((bitField ws pos a.bits : Nat) + a.offset, a.scale)

/-- Fields one after the other. -/
def Spec.decodedFrom (ws : List Int) : Nat → List RealAttr → List RealVal
  | _, [] => []
  | pos, a :: as => decoded ws pos a :: decodedFrom ws (pos + a.bits) as

theorem recordNumber_cons (w : Int) (ws : List Int) :
    Spec.recordNumber (w :: ws) = toU32 w + 4294967296 * Spec.recordNumber ws := rfl

theorem recordNumber_drop (ws : List Int) (k : Nat) :
    Spec.recordNumber ws / 2 ^ (32 * k) = Spec.recordNumber (ws.drop k) := by
  induction k generalizing ws with
  | zero => simp
  | succ k ih =>
    cases ws with
    | nil => simp [Spec.recordNumber]
    | cons w ws =>
      rw [List.drop_succ_cons, ← ih ws, recordNumber_cons, show 32 * (k + 1) = 32 + 32 * k by omega, Nat.pow_add,
        ← Nat.div_div_eq_div_mul]
      congr 1
      have := toU32_lt w
      rw [show (2 : Nat) ^ 32 = 4294967296 by norm_num]
      omega

theorem ishift_mask {bits : Nat} (h : bits ≤ 32) : ishift mskpat ((bits : Int) - 32) = ((2 ^ bits - 1 : Nat) : Int) := by
  unfold ishift mskpat
  rw [if_neg (by omega)]
  by_cases h0 : (bits : Int) - 32 < 0
  · rw [if_pos h0, if_neg (by omega), ishift_nonneg_div _ (by omega)]
    congr 1
    have e1 : (-((bits : Int) - 32)).toNat = 32 - bits := by omega
    rw [e1]
    have e2 : (0xFFFFFFFF : Int).toNat = 2 ^ 32 - 1 := by decide
    rw [e2]
    have e3 : (2 : Nat) ^ 32 = 2 ^ bits * 2 ^ (32 - bits) := by rw [← Nat.pow_add]; congr 1; omega
    have p1 := Nat.two_pow_pos (32 - bits)
    have p2 := Nat.two_pow_pos bits
    rw [e3]
    rw [Nat.div_eq_iff p1]
    have e4 : (2 ^ bits - 1) * 2 ^ (32 - bits) = 2 ^ bits * 2 ^ (32 - bits) - 2 ^ (32 - bits) := by
      rw [Nat.sub_mul, Nat.one_mul]
    have e5 : 2 ^ (32 - bits) ≤ 2 ^ bits * 2 ^ (32 - bits) := Nat.le_mul_of_pos_left _ p2
    rw [e4]
    omega
  · rw [if_neg h0]
    have : bits = 32 := by omega
    subst this
    decide

theorem and32_mask (a : Int) {bits : Nat} (h : bits ≤ 32) :
    and32 a ((2 ^ bits - 1 : Nat) : Int) = ((toU32 a % 2 ^ bits : Nat) : Int) := by
  unfold and32
  have p2 := Nat.two_pow_pos bits
  have hb : (2 : Nat) ^ bits ≤ 2 ^ 32 := Nat.pow_le_pow_right (by decide) h
  rw [toU32_of_nonneg (i := ((2 ^ bits - 1 : Nat) : Int)) (by omega) (by omega), Int.toNat_natCast, Nat.and_two_pow_sub_one_eq_mod]

/-- Reading a field: the low part comes from one word, the rest from the next. -/
theorem realField_spec (pdat : List Int) (itotal bits : Nat) (hw : ∀ w ∈ pdat, inI32 w) (hb : bits ≤ 32)
    (h : itotal / 32 < pdat.length) (hfit : itotal + bits ≤ 32 * pdat.length) :
    realField pdat itotal bits = .ok ((Spec.bitField pdat itotal bits : Nat) : Int) := by
  have hq : itotal = 32 * (itotal / 32) + itotal % 32 := by omega
  generalize hk : itotal / 32 = k at *
  generalize ho : itotal % 32 = off at *
  have hoff : off < 32 := by omega
  have hget : pdat[k]? = some pdat[k] := List.getElem?_eq_getElem h
  have hdrop : pdat.drop k = pdat[k] :: pdat.drop (k + 1) := List.drop_eq_getElem_cons h
  have hfield : Spec.bitField pdat itotal bits =
      (toU32 pdat[k] + 4294967296 * Spec.recordNumber (pdat.drop (k + 1))) / 2 ^ off % 2 ^ bits := by
    unfold Spec.bitField
    rw [hq, Nat.pow_add, ← Nat.div_div_eq_div_mul, recordNumber_drop, hdrop, recordNumber_cons]
  have hw0 : inI32 pdat[k] := hw _ (List.getElem_mem h)
  have hs0 : toU32 (ishift pdat[k] (1 - ((off : Int) + 1))) = toU32 pdat[k] / 2 ^ off := by
    rw [C33_ishift _ _ hw0.1 (by have := hw0.2; omega)]
    unfold Spec.ishft
    by_cases h0 : off = 0
    · subst h0
      rw [if_pos (by omega)]
      have e0 : (1 - (((0 : Nat) : Int) + 1)).toNat = 0 := by omega
      rw [e0, Nat.pow_zero, Nat.mul_one, Nat.div_one]
      exact Nat.mod_eq_of_lt (toU32_lt _)
    · rw [if_neg (by omega), show (-(1 - ((off : Int) + 1))).toNat = off by omega]
  unfold realField
  simp only [hk, ho, hget, ishift_mask hb]
  rw [and32_mask _ hb, hs0]
  have e32 : (4294967296 : Nat) = 2 ^ off * 2 ^ (32 - off) := by
    rw [← Nat.pow_add, show off + (32 - off) = 32 by omega]
  generalize hR : Spec.recordNumber (pdat.drop (k + 1)) = R at hfield
  have hu : toU32 pdat[k] < 4294967296 := toU32_lt _
  have hsplit : (toU32 pdat[k] + 4294967296 * R) / 2 ^ off = toU32 pdat[k] / 2 ^ off + 2 ^ (32 - off) * R := by
    rw [e32, Nat.mul_assoc, Nat.add_mul_div_left _ _ (Nat.two_pow_pos off)]
  rw [hsplit] at hfield
  have hlow : toU32 pdat[k] / 2 ^ off < 2 ^ (32 - off) := by
    rw [Nat.div_lt_iff_lt_mul (Nat.two_pow_pos off), Nat.mul_comm, ← e32]; exact hu
  by_cases hsp : (off : Int) + 1 + bits - 1 > 32
  · rw [if_pos hsp]
    have hk1 : k + 1 < pdat.length := by omega
    have hget1 : pdat[k + 1]? = some pdat[k + 1] := List.getElem?_eq_getElem hk1
    simp only [hget1]
    have hdrop1 : pdat.drop (k + 1) = pdat[k + 1] :: pdat.drop (k + 2) := List.drop_eq_getElem_cons hk1
    rw [hdrop1, recordNumber_cons] at hR
    have hw1 : inI32 pdat[k + 1] := hw _ (List.getElem_mem hk1)
    have hoff1 : 1 ≤ off := by omega
    have hs1 : toU32 (ishift pdat[k + 1] (1 - ((off : Int) + 1) + 32)) = toU32 pdat[k + 1] * 2 ^ (32 - off) % 4294967296 := by
      rw [C33_ishift _ _ hw1.1 (by have := hw1.2; omega)]
      unfold Spec.ishft
      rw [if_pos (by omega), show (1 - ((off : Int) + 1) + 32).toNat = 32 - off by omega]
    rw [and32_mask _ hb, hs1]
    congr 1
    unfold or32
    simp only [Int.toNat_natCast]
    congr 1
    rw [hfield]
    -- low part, below 2^(32-off) ≤ 2^bits
    have hpb : (2 : Nat) ^ bits = 2 ^ (32 - off) * 2 ^ (bits - (32 - off)) := by rw [← Nat.pow_add]; congr 1; omega
    have hle : (2 : Nat) ^ (32 - off) ≤ 2 ^ bits := Nat.pow_le_pow_right (by decide) (by omega)
    rw [Nat.mod_eq_of_lt (Nat.lt_of_lt_of_le hlow hle)]
    have hdvd : (2 : Nat) ^ bits ∣ 4294967296 := by
      rw [show (4294967296 : Nat) = 2 ^ 32 by norm_num]; exact Nat.pow_dvd_pow 2 hb
    rw [Nat.mod_mod_of_dvd _ hdvd, Nat.mul_comm (toU32 _), hpb, Nat.mul_mod_mul_left, Nat.or_comm,
      ← Nat.two_pow_add_eq_or_of_lt hlow, ← hR]
    rw [Nat.mod_mul, Nat.add_mul_mod_self_left, Nat.mod_eq_of_lt hlow, Nat.add_mul_div_left _ _ (Nat.two_pow_pos _),
      Nat.div_eq_of_lt hlow, Nat.zero_add, Nat.add_comm (_ / _)]
    congr 2
    have hdvd2 : (2 : Nat) ^ (bits - (32 - off)) ∣ 4294967296 := by
      rw [show (4294967296 : Nat) = 2 ^ 32 by norm_num]; exact Nat.pow_dvd_pow 2 (by omega)
    obtain ⟨c, hc⟩ := hdvd2
    rw [hc, Nat.mul_assoc, Nat.add_mul_mod_self_left]
  · rw [if_neg hsp]
    congr 2
    rw [hfield]
    have : (2 : Nat) ^ (32 - off) = 2 ^ bits * 2 ^ (32 - off - bits) := by rw [← Nat.pow_add]; congr 1; omega
    rw [this, Nat.mul_assoc, Nat.add_mul_mod_self_left]

theorem realValue_spec (pdat : List Int) (itotal : Nat) (a : RealAttr) (hw : ∀ w ∈ pdat, inI32 w) (hb : a.bits ≤ 32)
    (h : itotal / 32 < pdat.length) (hfit : itotal + a.bits ≤ 32 * pdat.length) :
    realValue pdat itotal a = .ok (Spec.decoded pdat itotal a) := by
  unfold realValue Spec.decoded
  rw [realField_spec pdat itotal a.bits hw hb h hfit, ishift_mask hb]
  show (if _ then _ else _) = _
  by_cases hm : Spec.bitField pdat itotal a.bits = 2 ^ a.bits - 1
  · rw [if_pos hm, if_pos (by rw [hm])]
  · rw [if_neg hm, if_neg (by intro hc; exact hm (Int.ofNat.inj hc))]

/-- Every field begins inside the record (true unless fields of width zero come at the very end). -/
def Spec.StartsInside (total : Nat) : Nat → List RealAttr → Prop
  | _, [] => True
  | pos, a :: as => pos < total ∧ StartsInside total (pos + a.bits) as

theorem realRecord_spec (pdat : List Int) (attrs : List RealAttr) (itotal : Nat) (hw : ∀ w ∈ pdat, inI32 w)
    (hb : ∀ a ∈ attrs, a.bits ≤ 32) (hfit : itotal + (attrs.map RealAttr.bits).sum ≤ 32 * pdat.length)
    (hin : Spec.StartsInside (32 * pdat.length) itotal attrs) :
    realRecord pdat itotal attrs = .ok (Spec.decodedFrom pdat itotal attrs) := by
  induction attrs generalizing itotal with
  | nil => rfl
  | cons a as ih =>
    rw [List.map_cons, List.sum_cons] at hfit
    unfold realRecord
    rw [realValue_spec pdat itotal a hw (hb a List.mem_cons_self) (by have := hin.1; omega) (by omega)]
    show (do .ok (_ :: (← realRecord pdat (itotal + a.bits) as))) = _
    rw [ih (itotal + a.bits) (fun x hx => hb x (List.mem_cons_of_mem _ hx)) (by omega) hin.2]
    rfl

theorem realLoop_spec (buffer : List Int) (attrs : List RealAttr) (pwords n ii : Nat) (hw : ∀ w ∈ buffer, inI32 w)
    (hb : ∀ a ∈ attrs, a.bits ≤ 32) (hfit : (attrs.map RealAttr.bits).sum ≤ 32 * pwords)
    (hin : Spec.StartsInside (32 * pwords) 0 attrs) (hl : ii + n * pwords ≤ buffer.length) :
    realLoop buffer attrs pwords n ii =
      .ok ((List.range n).flatMap fun k => Spec.decodedFrom ((buffer.drop (ii + k * pwords)).take pwords) 0 attrs) := by
  induction n generalizing ii with
  | zero => rfl
  | succ n ih =>
    have hm : (n + 1) * pwords = pwords + n * pwords := by rw [Nat.add_mul, Nat.one_mul, Nat.add_comm]
    rw [hm] at hl
    have hlen : ((buffer.drop ii).take pwords).length = pwords := by simp; omega
    unfold realLoop
    rw [realRecord_spec _ attrs 0 (fun w hw' => hw w (List.mem_of_mem_drop (List.mem_of_mem_take hw'))) hb
      (by rw [hlen]; omega) (by rw [hlen]; exact hin)]
    show (do .ok (_ ++ (← realLoop buffer attrs pwords n (ii + pwords)))) = _
    rw [ih (ii + pwords) (by omega)]
    show Except.ok (_ ++ _) = _
    congr 1
    rw [List.range_succ_eq_map, List.flatMap_cons, Nat.zero_mul, Nat.add_zero, List.flatMap_map]
    congr 1
    rw [List.flatMap_def, List.flatMap_def]
    congr 1
    apply List.map_congr_left
    intro k _
    rw [show ii + pwords + k * pwords = ii + (k + 1) * pwords by rw [Nat.add_mul]; omega]

/-- Number of words of a packed record. -/
def Spec.recordWords (attrs : List RealAttr) : Nat := ((attrs.map RealAttr.bits).sum + 31) / 32

/-- C30 (partial: trailing fields of width zero behind a record that fills its words exactly are excluded, see
`C31_zero_width`): a buffer of `n` records decodes record by record, field by field, to the scaled and offset fields of
the bit string, missing exactly for fields of ones. -/
theorem C30_decoded_partial (buffer : List Int) (attrs : List RealAttr) (n : Nat) (hw : ∀ w ∈ buffer, inI32 w)
    (hb : ∀ a ∈ attrs, a.bits ≤ 32) (hpos : 0 < (attrs.map RealAttr.bits).sum)
    (hin : Spec.StartsInside (32 * Spec.recordWords attrs) 0 attrs) (hl : buffer.length = n * Spec.recordWords attrs) :
    unpackReal buffer attrs buffer.length = .ok ((List.range n).flatMap fun k =>
      Spec.decodedFrom ((buffer.drop (k * Spec.recordWords attrs)).take (Spec.recordWords attrs)) 0 attrs) := by
  unfold unpackReal
  have hp : ((((attrs.map RealAttr.bits).sum : Nat) : Int) - 1) / 32 + 1 = ((Spec.recordWords attrs : Nat) : Int) := by
    unfold Spec.recordWords; omega
  have hpp : 0 < Spec.recordWords attrs := by unfold Spec.recordWords; omega
  rw [hp]
  generalize hP : Spec.recordWords attrs = P at *
  simp only
  rw [if_neg (by omega)]
  have hn : ((buffer.length : Int) - 1) / P + 1 = n := by
    rw [hl]
    push_cast
    cases n with
    | zero =>
      have : ((0 : Nat) : Int) * (P : Int) - 1 = -1 := by simp
      rw [this, Int.neg_one_ediv, Int.sign_eq_one_of_pos (by omega)]
      rfl
    | succ n =>
      have : (((n + 1 : Nat) : Int) * P - 1) = (P - 1) + n * P := by push_cast; ring
      rw [this, Int.add_mul_ediv_right _ _ (by omega), Int.ediv_eq_zero_of_lt (by omega) (by omega)]
      omega
  rw [hn, if_neg (by rw [hl]; push_cast; simp)]
  rw [Int.toNat_natCast, Int.toNat_natCast, realLoop_spec buffer attrs P n 0 hw hb
    (by rw [← hP]; unfold Spec.recordWords; omega) hin (by omega)]
  simp

/-- C31: a buffer that is no whole number of records raises. -/
theorem C31_short (buffer : List Int) (attrs : List RealAttr) (len : Nat) (hpos : 0 < (attrs.map RealAttr.bits).sum)
    (h : ¬ Spec.recordWords attrs ∣ len) : unpackReal buffer attrs len = .error .valueError := by
  unfold unpackReal
  have hp : ((((attrs.map RealAttr.bits).sum : Nat) : Int) - 1) / 32 + 1 = ((Spec.recordWords attrs : Nat) : Int) := by
    unfold Spec.recordWords; omega
  have hpp : 0 < Spec.recordWords attrs := by unfold Spec.recordWords; omega
  rw [hp]
  simp only
  rw [if_neg (by omega), if_pos]
  intro hc
  apply h
  have : ((Spec.recordWords attrs : Nat) : Int) ∣ (len : Int) := ⟨_, by rw [Int.mul_comm]; exact hc.symm⟩
  exact Int.natCast_dvd_natCast.1 this

theorem realLoop_take (buffer : List Int) (attrs : List RealAttr) (pwords n ii len : Nat) (h : ii + n * pwords ≤ len) :
    realLoop (buffer.take len) attrs pwords n ii = realLoop buffer attrs pwords n ii := by
  induction n generalizing ii with
  | zero => rfl
  | succ n ih =>
    have hm : (n + 1) * pwords = pwords + n * pwords := by rw [Nat.add_mul, Nat.one_mul, Nat.add_comm]
    rw [hm] at h
    unfold realLoop
    rw [ih (ii + pwords) (by omega), List.drop_take, List.take_take, Nat.min_eq_left (by omega)]

/-- C31: no word beyond the given length has any influence, whatever the outcome. -/
theorem C31_beyond (buffer : List Int) (attrs : List RealAttr) (len : Nat) :
    unpackReal (buffer.take len) attrs len = unpackReal buffer attrs len := by
  unfold unpackReal
  simp only
  split
  · rfl
  · split
    · rfl
    · rename_i h1 h2
      apply realLoop_take
      have h2 : _ = (len : Int) := Classical.not_not.1 h2
      have hp : 0 < (((attrs.map RealAttr.bits).sum : Nat) - 1 : Int) / 32 + 1 := by omega
      generalize (((attrs.map RealAttr.bits).sum : Nat) - 1 : Int) / 32 + 1 = P at *
      have hn : 0 ≤ ((len : Int) - 1) / P + 1 := by
        have h3 : (-1 : Int) / P ≤ ((len : Int) - 1) / P := Int.ediv_le_ediv hp (by omega)
        rw [Int.neg_one_ediv, Int.sign_eq_one_of_pos hp] at h3
        omega
      generalize ((len : Int) - 1) / P + 1 = N at *
      have : ((N.toNat * P.toNat : Nat) : Int) = len := by
        rw [Int.natCast_mul, Int.toNat_of_nonneg hn, Int.toNat_of_nonneg (by omega), h2]
      omega

/-- Deviation from C30: records without any bits raise `ZeroDivisionError`, whatever the buffer. -/
theorem C30_no_bits (buffer : List Int) (attrs : List RealAttr) (len : Nat) (h : (attrs.map RealAttr.bits).sum = 0) :
    unpackReal buffer attrs len = .error .zeroDivision := by
  unfold unpackReal
  rw [h]
  rfl

/-- Deviation from C31 (and the case left out of C30): a parameter of width zero behind a record that fills its words
exactly makes the decoder look for the word after the record: `IndexError`, although the field is empty. -/
theorem C31_zero_width (w s o s' o' : Int) :
    unpackReal [w] [⟨32, s, o⟩, ⟨0, s', o'⟩] 1 = .error .indexError := by
  have h1 : ∃ v, realValue [w] 0 ⟨32, s, o⟩ = .ok v := by
    unfold realValue realField
    simp only [Nat.zero_div, List.getElem?_cons_zero, Nat.zero_mod]
    rw [if_neg (by omega)]
    simp only [bind, Except.bind]
    split
    · exact ⟨_, rfl⟩
    · exact ⟨_, rfl⟩
  obtain ⟨v, h1⟩ := h1
  have h2 : realValue [w] 32 ⟨0, s', o'⟩ = .error .indexError := rfl
  have h3 : realRecord [w] 0 [⟨32, s, o⟩, ⟨0, s', o'⟩] = .error .indexError := by
    simp only [realRecord, h1, h2, bind, Except.bind, Nat.zero_add]
  have h4 : realLoop [w] [⟨32, s, o⟩, ⟨0, s', o'⟩] 1 1 0 = .error .indexError := by
    simp only [realLoop, List.drop_zero, List.take_succ_cons, List.take_zero, h3, bind, Except.bind]
  unfold unpackReal
  simp only [List.map_cons, List.map_nil, List.sum_cons, List.sum_nil]
  rw [if_neg (by decide), if_neg (by decide)]
  exact h4

/-- Two parameters of 20 and 16 bits, the second across the word boundary. -/
example : unpackReal [-1, 7, 5, 0] [⟨20, -1, 3⟩, ⟨16, 0, 0⟩] 4 = .ok [none, some (32767, 0), some (8, -1), some (0, 0)] := by
  decide +kernel

example : Spec.StartsInside (32 * Spec.recordWords [⟨20, -1, 3⟩, ⟨16, 0, 0⟩]) 0 [⟨20, -1, 3⟩, ⟨16, 0, 0⟩] := by
  simp [Spec.StartsInside, Spec.recordWords]

end Gempak
