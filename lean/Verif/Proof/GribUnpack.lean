import Verif.Proof.GribPack

/-! Helper lemmas: the unpacker reads exactly the fields of the bit string. -/

namespace Gempak.Grib
open Spec

theorem splitWord_iff (n k : Nat) (hn1 : 1 ≤ n) (hn2 : n ≤ 31) :
    splitWord n k = true ↔ n * k < 32 * ((n * k + n - 1) / 32) := by
  unfold splitWord
  rw [wordShift_eq, show (k + 1) * n = n * k + n by ring]
  generalize n * k = p
  simp only [decide_eq_true_eq]
  have : (32 - (p + n) % 32) % 32 = 32 * ((p + n - 1) / 32 + 1) - (p + n) := by omega
  rw [this]
  omega

theorem evenWord_iff (n k : Nat) : evenWord n (k + 1) = true ↔ n * (k + 1) % 32 = 0 := by
  unfold evenWord
  rw [wordShift_eq, show (k + 1 - 1 + 1) * n = n * (k + 1) by simp; ring]
  generalize n * (k + 1) = p
  simp only [decide_eq_true_eq]
  omega

theorem wordIdx_eq (n k : Nat) (hn1 : 1 ≤ n) (hn2 : n ≤ 31) :
    wordIdx n k = (n * k + n - 1) / 32 := by
  induction k with
  | zero =>
    have h1 : splitWord n 0 = false := by
      rw [Bool.eq_false_iff]; intro h; rw [splitWord_iff n 0 hn1 hn2] at h; simp at h; omega
    have h2 : evenWord n 0 = false := by simp [evenWord]
    simp [wordIdx, h1, h2]; omega
  | succ k ih =>
    have h1 := splitWord_iff n (k + 1) hn1 hn2
    have h2 := evenWord_iff n k
    have hp : n * (k + 1) = n * k + n := by ring
    rw [hp] at h1 h2
    rw [wordIdx, ih, hp]
    generalize n * k = p at *
    by_cases h : splitWord n (k + 1) || evenWord n (k + 1)
    · rw [if_pos h]
      rw [Bool.or_eq_true, h1, h2] at h
      omega
    · rw [if_neg h]
      rw [Bool.or_eq_true, h1, h2] at h
      omega

theorem wordShift_nat (n k : Nat) (hn1 : 1 ≤ n) :
    wordShift n k = ((32 * ((n * k + n - 1) / 32 + 1) - (n * k + n) : Nat) : Int) := by
  rw [wordShift_eq, show (k + 1) * n = n * k + n by ring]
  generalize n * k = p
  congr 1
  omega

theorem maskBits_nat (n x : Nat) : maskBits n (x : Int) = x % 2 ^ n := by
  unfold maskBits
  rw [← Int.natCast_mod, Int.toNat_natCast]

theorem toU32_mod (n : Nat) (hn2 : n ≤ 32) (i : Int) : (toU32 i : Int) % (2 ^ n : Nat) = i % (2 ^ n : Nat) := by
  unfold toU32
  have h0 : 0 ≤ i % 4294967296 := Int.emod_nonneg _ (by decide)
  rw [Int.toNat_of_nonneg h0]
  apply Int.emod_emod_of_dvd
  rw [show (4294967296 : Int) = ((2 ^ 32 : Nat) : Int) by norm_num]
  exact Int.natCast_dvd_natCast.mpr (Nat.pow_dvd_pow 2 hn2)

theorem toI32_mod (n : Nat) (hn2 : n ≤ 32) (x : Nat) : toI32 x % (2 ^ n : Nat) = (x : Int) % (2 ^ n : Nat) := by
  unfold toI32
  split
  · rfl
  · have : ((4294967296 : Int)) = ((2 ^ n : Nat) : Int) * ((2 ^ (32 - n) : Nat) : Int) := by
      rw [← Int.natCast_mul, ← Nat.pow_add, show n + (32 - n) = 32 by omega]; norm_num
    rw [this, Int.sub_mul_emod_self_left]

theorem maskBits_wrap (n t : Nat) (hn2 : n ≤ 32) (w1 : Int) :
    maskBits n (wrapI32 (w1 * (2 ^ t : Nat))) = toU32 w1 * 2 ^ t % 2 ^ n := by
  rw [← maskBits_nat]
  unfold maskBits
  congr 1
  unfold wrapI32
  rw [toI32_mod n hn2, toU32_mod n hn2, Int.natCast_mul, Int.mul_emod, ← toU32_mod n hn2 w1, ← Int.mul_emod]

theorem field_eq (n : Nat) (w : List Int) (k : Nat) (h : n * k + n ≤ 32 * w.length) :
    field n w k = horner 32 (w.map toU32) / 2 ^ (32 * w.length - (n * k + n)) % 2 ^ n := by
  have hU : ∀ x ∈ w.map toU32, x < 2 ^ 32 := by
    intro x hx
    obtain ⟨i, _, rfl⟩ := List.mem_map.mp hx
    exact toU32_lt i
  unfold field
  have hl : (bitString 32 (w.map toU32)).length = 32 * w.length := by rw [bitString_length]; simp
  rw [ofBits_take0 _ _ _ (by rw [hl]; exact h), hl, ofBits_bitString _ _ hU]
  congr 3
  omega

theorem unpackOne_ok (n : Nat) (hn1 : 1 ≤ n) (hn2 : n ≤ 31) (w : List Int) (k : Nat)
    (h : n * k + n ≤ 32 * w.length) : unpackOne n w k = .ok (field n w k) := by
  have hU : ∀ x ∈ w.map toU32, x < 2 ^ 32 := by
    intro x hx
    obtain ⟨i, _, rfl⟩ := List.mem_map.mp hx
    exact toU32_lt i
  have hsp := splitWord_iff n k hn1 hn2
  rw [field_eq n w k h]
  unfold unpackOne
  rw [wordIdx_eq n k hn1 hn2, wordShift_nat n k hn1]
  have hs31 : 32 * ((n * k + n - 1) / 32 + 1) - (n * k + n) ≤ 31 := by omega
  have hsv : 32 * ((n * k + n - 1) / 32 + 1) - (n * k + n) + (n * k + n) = 32 * ((n * k + n - 1) / 32 + 1) := by omega
  have hi0 : (n * k + n - 1) / 32 < w.length := by omega
  generalize hs : 32 * ((n * k + n - 1) / 32 + 1) - (n * k + n) = s at *
  generalize hi : (n * k + n - 1) / 32 = i0 at *
  generalize hp : n * k = p at *
  have hexp : 32 * w.length - (p + n) = 32 * (w.length - (i0 + 1)) + s := by omega
  have hlen : (w.map toU32).length = w.length := by simp
  have hfield : horner 32 (w.map toU32) / 2 ^ (32 * w.length - (p + n)) =
      horner 32 ((w.map toU32).take i0) * 2 ^ (32 - s) + toU32 w[i0] / 2 ^ s := by
    rw [hexp, Nat.pow_add, ← Nat.div_div_eq_div_mul]
    have := horner_take 32 (w.map toU32) hU (i0 + 1)
    rw [hlen] at this
    rw [← this, horner_take_succ 32 _ i0 (by simpa using hi0)]
    rw [show (2 : Nat) ^ 32 = 2 ^ (32 - s) * 2 ^ s by rw [← Nat.pow_add]; congr 1; omega, ← Nat.mul_assoc,
      Nat.add_comm, Nat.add_mul_div_right _ _ (Nat.two_pow_pos _)]
    simp [Nat.add_comm]
  rw [hfield]
  simp only [List.getElem?_eq_getElem hi0, Int.toNat_natCast]
  have hW : toU32 w[i0] < 2 ^ 32 := toU32_lt _
  by_cases hsplit : splitWord n k = true
  · rw [if_pos hsplit]
    rw [hsp] at hsplit
    have hi1 : 1 ≤ i0 := by omega
    have hi1' : i0 - 1 < w.length := by omega
    rw [List.getElem?_eq_getElem hi1']
    simp only
    have htt : (32 - (s : Int)).toNat = 32 - s := by omega
    rw [htt, maskBits_wrap n _ (by omega), maskBits_nat]
    have htake := horner_take_succ 32 (w.map toU32) (i0 - 1) (by simpa using hi1')
    rw [show i0 - 1 + 1 = i0 by omega] at htake
    rw [htake]
    simp only [List.getElem_map]
    generalize horner 32 (List.take (i0 - 1) (List.map toU32 w)) = H
    have hlow : toU32 w[i0] / 2 ^ s < 2 ^ (32 - s) := by
      apply Nat.div_lt_of_lt_mul
      rw [← Nat.pow_add, show s + (32 - s) = 32 by omega]; exact hW
    generalize toU32 w[i0] / 2 ^ s = low at *
    generalize toU32 w[i0 - 1] = W1 at *
    have hnt : 32 - s < n := by omega
    have hpn : (2 : Nat) ^ n = 2 ^ (n - (32 - s)) * 2 ^ (32 - s) := by
      rw [← Nat.pow_add]; congr 1; omega
    have h1 : low % 2 ^ n = low :=
      Nat.mod_eq_of_lt (lt_trans hlow (Nat.pow_lt_pow_right (by decide) hnt))
    have h2 : (H * 2 ^ 32 + W1) * 2 ^ (32 - s) % 2 ^ n = W1 * 2 ^ (32 - s) % 2 ^ n := by
      have : H * 2 ^ 32 * 2 ^ (32 - s) = H * 2 ^ (32 + (32 - s) - n) * 2 ^ n := by
        rw [Nat.mul_assoc, Nat.mul_assoc, ← Nat.pow_add, ← Nat.pow_add]; congr 2; omega
      rw [Nat.add_mul, this, Nat.add_comm, Nat.add_mul_mod_self_right]
    rw [h1, Nat.add_mod, h2, h1]
    have h3 : W1 * 2 ^ (32 - s) % 2 ^ n = W1 % 2 ^ (n - (32 - s)) * 2 ^ (32 - s) := by
      rw [hpn, Nat.mul_mod_mul_right]
    have hb : W1 % 2 ^ (n - (32 - s)) < 2 ^ (n - (32 - s)) := Nat.mod_lt _ (Nat.two_pow_pos _)
    have hb2 : (W1 % 2 ^ (n - (32 - s)) + 1) * 2 ^ (32 - s) ≤ 2 ^ n := by
      rw [hpn]; exact Nat.mul_le_mul_right _ hb
    rw [Nat.add_mul] at hb2
    rw [h3]
    congr 1
    rw [Nat.add_comm]
    exact (Nat.mod_eq_of_lt (by omega)).symm
  · rw [if_neg hsplit]
    rw [hsp] at hsplit
    rw [maskBits_nat]
    congr 1
    have : horner 32 ((w.map toU32).take i0) * 2 ^ (32 - s) =
        horner 32 ((w.map toU32).take i0) * 2 ^ (32 - s - n) * 2 ^ n := by
      rw [Nat.mul_assoc, ← Nat.pow_add]; congr 2; omega
    rw [this, Nat.add_comm, Nat.add_mul_mod_self_right]

theorem unpackOne_error (n : Nat) (hn1 : 1 ≤ n) (hn2 : n ≤ 31) (w : List Int) (k : Nat)
    (h : 32 * w.length < n * k + n) : unpackOne n w k = .error .indexError := by
  unfold unpackOne
  have hnone : w[(n * k + n - 1) / 32]? = none := List.getElem?_eq_none (by omega)
  simp only [wordIdx_eq n k hn1 hn2, hnone]

theorem mapM_ok {α β : Type} (f : α → Except PyErr β) (g : α → β) (l : List α) (h : ∀ a ∈ l, f a = .ok (g a)) :
    l.mapM f = .ok (l.map g) := by
  induction l with
  | nil => rfl
  | cons a l ih =>
    rw [List.mapM_cons, h a (by simp), ih (fun b hb => h b (by simp [hb]))]
    rfl

theorem mapM_error {α β : Type} (f : α → Except PyErr β) (e : PyErr) (l : List α)
    (h : ∀ a ∈ l, f a = .error e ∨ ∃ b, f a = .ok b) (hex : ∃ a ∈ l, f a = .error e) :
    l.mapM f = .error e := by
  induction l with
  | nil => simp at hex
  | cons a l ih =>
    rw [List.mapM_cons]
    rcases h a (by simp) with ha | ⟨b, hb⟩
    · rw [ha]; rfl
    · have : l.mapM f = .error e := by
        apply ih (fun c hc => h c (by simp [hc]))
        obtain ⟨c, hc, hce⟩ := hex
        rcases List.mem_cons.mp hc with rfl | hc
        · rw [hb] at hce; simp at hce
        · exact ⟨c, hc, hce⟩
      rw [hb, this]; rfl

theorem unpackWords_eq (n : Nat) (hn1 : 1 ≤ n) (hn2 : n ≤ 31) (w : List Int) (kxky : Nat) :
    unpackWords n w kxky =
      if 0 < kxky ∧ n * kxky ≤ 32 * w.length then .ok ((List.range kxky).map (field n w))
      else .error .indexError := by
  unfold unpackWords
  by_cases h0 : kxky = 0
  · rw [if_pos h0, if_neg (by omega)]
  · rw [if_neg h0]
    by_cases h : n * kxky ≤ 32 * w.length
    · rw [if_pos ⟨by omega, h⟩]
      apply mapM_ok
      intro k hk
      rw [List.mem_range] at hk
      apply unpackOne_ok n hn1 hn2
      have : n * (k + 1) ≤ n * kxky := Nat.mul_le_mul_left _ hk
      rw [Nat.mul_add, Nat.mul_one] at this
      omega
    · rw [if_neg (by omega)]
      apply mapM_error
      · intro k _
        by_cases hk : n * k + n ≤ 32 * w.length
        · exact Or.inr ⟨_, unpackOne_ok n hn1 hn2 w k hk⟩
        · exact Or.inl (unpackOne_error n hn1 hn2 w k (by omega))
      · refine ⟨kxky - 1, by simp; omega, unpackOne_error n hn1 hn2 w _ ?_⟩
        have : n * (kxky - 1) + n = n * kxky := by
          rw [← Nat.mul_succ]; congr 1; omega
        omega

/-- The fields of the packed words are the packed values. -/
theorem field_packed (n : Nat) (r : List Nat) (hr : ∀ x ∈ r, x < 2 ^ n) (k : Nat) (hk : k < r.length) :
    field n (packed n r) k = r[k] := by
  have hlen : (packed n r).length = wordCount n r.length := by simp [packed]
  have hL : n * r.length ≤ 32 * wordCount n r.length := by unfold wordCount; omega
  have hU : (packed n r).map toU32 = (List.range (wordCount n r.length)).map (wordAt (bitString n r)) := by
    simp only [packed, List.map_map]
    apply List.map_congr_left
    intro w hw
    simp only [Function.comp]
    apply toU32_toI32
    have := ofBits_lt (take0 32 (32 * w) (bitString n r))
    simpa [wordAt, take0] using this
  have hk' : n * k + n ≤ n * r.length := by
    have : n * (k + 1) ≤ n * r.length := Nat.mul_le_mul_left _ hk
    rw [Nat.mul_add, Nat.mul_one] at this
    omega
  rw [field_eq n _ k (by rw [hlen]; omega), hU, hlen]
  -- the words concatenate to the padded number
  have hcat : ∀ m, m ≤ wordCount n r.length → horner 32 ((List.range m).map (wordAt (bitString n r))) =
      horner n r * 2 ^ (32 * wordCount n r.length - n * r.length) / 2 ^ (32 * (wordCount n r.length - m)) := by
    intro m
    induction m with
    | zero =>
      intro _
      have : horner n r * 2 ^ (32 * wordCount n r.length - n * r.length) < 2 ^ (32 * (wordCount n r.length - 0)) := by
        have h1 := horner_lt n r hr
        calc _ < 2 ^ (n * r.length) * 2 ^ (32 * wordCount n r.length - n * r.length) :=
              Nat.mul_lt_mul_of_pos_right h1 (Nat.two_pow_pos _)
          _ = _ := by rw [← Nat.pow_add]; congr 1; omega
      rw [Nat.div_eq_of_lt this]
      simp [horner]
    | succ m ih =>
      intro hm
      rw [List.range_succ, List.map_append, List.map_singleton, horner_append_single, ih (by omega),
        wordAt_bitString n r hr m (by omega)]
      generalize horner n r * 2 ^ (32 * wordCount n r.length - n * r.length) = X
      rw [show 32 * (wordCount n r.length - m) = 32 * (wordCount n r.length - (m + 1)) + 32 by omega, Nat.pow_add,
        ← Nat.div_div_eq_div_mul, show wordCount n r.length - 1 - m = wordCount n r.length - (m + 1) by omega]
      exact Nat.div_add_mod' _ _
  rw [hcat _ le_rfl, Nat.sub_self, Nat.mul_zero, Nat.pow_zero, Nat.div_one]
  rw [show 32 * wordCount n r.length - (n * k + n) =
    (32 * wordCount n r.length - n * r.length) + (n * r.length - (n * k + n)) by omega, Nat.pow_add,
    Nat.mul_comm (horner n r), Nat.mul_div_mul_left _ _ (Nat.two_pow_pos _)]
  have ht := horner_take n r hr (k + 1)
  rw [show n * (r.length - (k + 1)) = n * r.length - (n * k + n) by
    rw [Nat.mul_sub, Nat.mul_add, Nat.mul_one]] at ht
  rw [← ht, horner_take_succ n r k hk, Nat.add_comm, Nat.add_mul_mod_self_right]
  exact Nat.mod_eq_of_lt (hr _ (List.getElem_mem _))

end Gempak.Grib
