import Verif.Proof.Base
import Verif.Proof.Text
import Verif.Model.VgfDec

/-!
# Strings and words of vector graphic files (C65, C68)
-/

namespace Gempak

/-! ## Lenient decoding -/

theorem utf8Ignore_enc (c : Char) (r : Bytes) : utf8Ignore (utf8Enc c ++ r) = c :: utf8Ignore r := by
  have hc := char_lt c
  unfold utf8Enc
  dsimp only
  split
  · rename_i h
    simp only [List.cons_append, List.nil_append]
    rw [utf8Ignore.eq_def]
    dsimp only
    rw [toNat_ofNat_lt (by omega), if_pos h, Char.ofNat_toNat]
  · split
    · rename_i h1 h2
      simp only [List.cons_append, List.nil_append]
      rw [utf8Ignore.eq_def]
      dsimp only
      have e : (0xC0 + c.toNat / 64 - 0xC0) * 64 + c.toNat % 64 = c.toNat := by omega
      rw [toNat_ofNat_lt (by omega), if_neg (by omega), if_neg (by omega), if_pos (by omega),
        contBits_ofNat (by omega)]
      simp only [Option.bind_some, e, scalar_toNat (show 0x80 ≤ c.toNat by omega)]
    · split
      · rename_i h1 h2 h3
        simp only [List.cons_append, List.nil_append]
        rw [utf8Ignore.eq_def]
        dsimp only
        rw [toNat_ofNat_lt (by omega), if_neg (by omega), if_neg (by omega), if_neg (by omega), if_pos (by omega),
          contBits_ofNat (by omega), contBits_ofNat (by omega)]
        have e : (0xE0 + c.toNat / 4096 - 0xE0) * 4096 + c.toNat / 64 % 64 * 64 + c.toNat % 64 = c.toNat := by omega
        simp only [Option.bind_some, e, scalar_toNat (show 0x800 ≤ c.toNat by omega)]
      · rename_i h1 h2 h3
        simp only [List.cons_append, List.nil_append]
        rw [utf8Ignore.eq_def]
        dsimp only
        rw [toNat_ofNat_lt (by omega), if_neg (by omega), if_neg (by omega), if_neg (by omega), if_neg (by omega),
          contBits_ofNat (by omega), contBits_ofNat (by omega), contBits_ofNat (by omega)]
        have e : (0xF0 + c.toNat / 262144 - 0xF0) * 262144 + c.toNat / 4096 % 64 * 4096 + c.toNat / 64 % 64 * 64
            + c.toNat % 64 = c.toNat := by omega
        simp only [Option.bind_some, e, scalar_toNat (show 0x10000 ≤ c.toNat by omega)]

/-- Lenient decoding of valid UTF-8 gives the text. -/
theorem utf8Ignore_utf8 (t : Text) : utf8Ignore (utf8 t) = t := by
  induction t with
  | nil => simp [utf8, utf8Ignore]
  | cons c t ih =>
    have : utf8 (c :: t) = utf8Enc c ++ utf8 t := by simp [utf8]
    rw [this, utf8Ignore_enc, ih]

theorem contBits_zero : contBits 0 = none := by decide

theorem utf8Ignore_zero (s : Bytes) : utf8Ignore (0 :: s) = Char.ofNat 0 :: utf8Ignore s := by
  rw [utf8Ignore.eq_def]; simp

/-- A NUL byte always ends up as a NUL character, whatever surrounds it. -/
theorem utf8Ignore_nul (p s : Bytes) : utf8Ignore (p ++ 0 :: s) = utf8Ignore p ++ Char.ofNat 0 :: utf8Ignore s := by
  obtain ⟨n, hn⟩ : ∃ n, p.length ≤ n := ⟨_, le_refl _⟩
  induction n generalizing p with
  | zero =>
    have : p = [] := List.eq_nil_of_length_eq_zero (by omega)
    subst this
    rw [List.nil_append, utf8Ignore_zero]; simp [utf8Ignore]
  | succ n ih =>
    match p with
    | [] => rw [List.nil_append, utf8Ignore_zero]; simp [utf8Ignore]
    | b0 :: rest =>
      simp only [List.length_cons] at hn
      rw [List.cons_append, utf8Ignore.eq_def, utf8Ignore.eq_def (b0 :: rest)]
      dsimp only
      split
      · rw [ih rest (by omega)]; rfl
      · split
        · exact ih rest (by omega)
        · split
          · match rest with
            | [] => simp [contBits_zero, utf8Ignore_zero]
            | b1 :: r =>
              simp only [List.cons_append, List.length_cons] at hn ⊢
              split
              · rw [ih r (by omega)]; rfl
              · have := ih (b1 :: r) (by simp; omega); exact this
          · split
            · match rest with
              | [] =>
                cases s with
                | nil => simp [utf8Ignore_zero]
                | cons b s => simp [contBits_zero, utf8Ignore_zero]
              | [b1] =>
                have := ih [b1] (by simp at hn ⊢; omega)
                simpa [contBits_zero] using this
              | b1 :: b2 :: r =>
                simp only [List.cons_append, List.length_cons] at hn ⊢
                split
                · rw [ih r (by omega)]; rfl
                · have := ih (b1 :: b2 :: r) (by simp; omega); exact this
            · match rest with
              | [] =>
                match s with
                | [] => simp [utf8Ignore_zero]
                | [b] => simp [utf8Ignore_zero]
                | b :: b' :: s => simp [contBits_zero, utf8Ignore_zero]
              | [b1] =>
                have := ih [b1] (by simp at hn ⊢; omega)
                cases s with
                | nil => simpa [contBits_zero] using this
                | cons b s => simpa [contBits_zero] using this
              | [b1, b2] =>
                have := ih [b1, b2] (by simp at hn ⊢; omega)
                simpa [contBits_zero] using this
              | b1 :: b2 :: b3 :: r =>
                simp only [List.cons_append, List.length_cons] at hn ⊢
                split
                · rw [ih r (by omega)]; rfl
                · have := ih (b1 :: b2 :: b3 :: r) (by simp; omega); exact this

theorem ne_nul {c : Char} (h : 1 ≤ c.toNat) : c ≠ Char.ofNat 0 := by
  rintro rfl
  revert h
  decide

/-- Without a NUL byte there is no NUL character. -/
theorem utf8Ignore_no_nul (p : Bytes) (h : 0 ∉ p) : Char.ofNat 0 ∉ utf8Ignore p := by
  obtain ⟨n, hn⟩ : ∃ n, p.length ≤ n := ⟨_, le_refl _⟩
  induction n generalizing p with
  | zero =>
    have : p = [] := List.eq_nil_of_length_eq_zero (by omega)
    subst this
    simp [utf8Ignore]
  | succ n ih =>
    have hc : ∀ {lo m : Nat} {c : Char}, 1 ≤ lo → scalar lo m = some c → c ≠ Char.ofNat 0 := by
      intro lo m c h1 h2
      have := scalar_some h2
      exact ne_nul (by omega)
    match p with
    | [] => simp [utf8Ignore]
    | b0 :: rest =>
      simp only [List.length_cons] at hn
      have h0 : b0 ≠ 0 := fun h0 => h (by simp [h0])
      have hr : 0 ∉ rest := fun h0 => h (by simp [h0])
      rw [utf8Ignore.eq_def]
      dsimp only
      split
      · rename_i hlt
        have : b0.toNat ≠ 0 := fun h1 => h0 (UInt8.toNat_inj.1 h1)
        have hv : (Char.ofNat b0.toNat).toNat = b0.toNat := toNat_ofNat_valid (Or.inl (by omega))
        simp only [List.mem_cons, not_or]
        exact ⟨(ne_nul (by omega)).symm, ih rest hr (by omega)⟩
      · split
        · exact ih rest hr (by omega)
        · split
          · match rest with
            | [] => simp
            | b1 :: r =>
              simp only [List.length_cons] at hn ⊢
              split
              · rename_i c hs
                obtain ⟨_, _, hs⟩ := Option.bind_eq_some_iff.1 hs
                simp only [List.mem_cons, not_or]
                exact ⟨(hc (by norm_num) hs).symm, ih r (fun h => hr (by simp [h])) (by omega)⟩
              · exact ih (b1 :: r) hr (by simp; omega)
          · split
            · match rest with
              | [] => simp
              | [b1] => exact ih [b1] hr (by simp at hn ⊢; omega)
              | b1 :: b2 :: r =>
                simp only [List.length_cons] at hn ⊢
                split
                · rename_i c hs
                  obtain ⟨_, _, hs⟩ := Option.bind_eq_some_iff.1 hs
                  obtain ⟨_, _, hs⟩ := Option.bind_eq_some_iff.1 hs
                  simp only [List.mem_cons, not_or]
                  exact ⟨(hc (by norm_num) hs).symm, ih r (fun h => hr (by simp [h])) (by omega)⟩
                · exact ih (b1 :: b2 :: r) hr (by simp; omega)
            · match rest with
              | [] => simp
              | [b1] => exact ih [b1] hr (by simp at hn ⊢; omega)
              | [b1, b2] => exact ih [b1, b2] hr (by simp at hn ⊢; omega)
              | b1 :: b2 :: b3 :: r =>
                simp only [List.length_cons] at hn ⊢
                split
                · rename_i c hs
                  obtain ⟨_, _, hs⟩ := Option.bind_eq_some_iff.1 hs
                  obtain ⟨_, _, hs⟩ := Option.bind_eq_some_iff.1 hs
                  obtain ⟨_, _, hs⟩ := Option.bind_eq_some_iff.1 hs
                  simp only [List.mem_cons, not_or]
                  exact ⟨(hc (by norm_num) hs).symm, ih r (fun h => hr (by simp [h])) (by omega)⟩
                · exact ih (b1 :: b2 :: b3 :: r) hr (by simp; omega)

/-! ## C65 -/

theorem pyFind_append (c : Char) (s t : Text) (h : c ∉ s) : pyFind c (s ++ c :: t) = s.length := by
  unfold pyFind
  have : (s ++ c :: t).findIdx? (· = c) = some s.length := by
    rw [List.findIdx?_append]
    have h1 : s.findIdx? (fun x => decide (x = c)) = none := by
      rw [List.findIdx?_eq_none_iff]
      intro x hx
      simp only [decide_eq_false_iff_not]
      rintro rfl
      exact h hx
    rw [h1]
    simp [List.findIdx?_cons]
  rw [this]

theorem pyFind_none (c : Char) (s : Text) (h : c ∉ s) : pyFind c s = -1 := by
  unfold pyFind
  have h1 : s.findIdx? (fun x => decide (x = c)) = none := by
    rw [List.findIdx?_eq_none_iff]
    intro x hx
    simp only [decide_eq_false_iff_not]
    rintro rfl
    exact h hx
  rw [h1]

/-- **C65** when the field contains a NUL: the result is the text before the first NUL (bytes that are not UTF-8 are left
out) without blanks at the ends; what follows the NUL does not matter. -/
theorem C65_strip_null_partial (p s : Bytes) (h : 0 ∉ p) : stripNull (p ++ 0 :: s) = strip (utf8Ignore p) := by
  unfold stripNull
  dsimp only
  rw [utf8Ignore_nul, pyFind_append _ _ _ (utf8Ignore_no_nul p h)]
  congr 1
  unfold pySlice
  simp only [List.length_append, List.length_cons]
  rw [if_neg (by omega), if_neg (by omega)]
  have e1 : (min (0 : Int) ((utf8Ignore p).length + ((utf8Ignore s).length + 1) : Nat)).toNat = 0 := by omega
  have e2 : (min ((utf8Ignore p).length : Int) ((utf8Ignore p).length + ((utf8Ignore s).length + 1) : Nat) -
      min (0 : Int) ((utf8Ignore p).length + ((utf8Ignore s).length + 1) : Nat)).toNat = (utf8Ignore p).length := by omega
  rw [e1, e2]
  simp

/-- For text: a field holding valid UTF-8 without NUL, then a NUL, gives the text without blanks at the ends. -/
theorem C65_text_partial (t : Text) (s : Bytes) (h : 0 ∉ utf8 t) : stripNull (utf8 t ++ 0 :: s) = strip t := by
  rw [C65_strip_null_partial _ _ h, utf8Ignore_utf8]

/-- C65 without a NUL: the last character is lost. -/
theorem C65_no_null (p : Bytes) (h : 0 ∉ p) : stripNull p = strip (utf8Ignore p).dropLast := by
  unfold stripNull
  dsimp only
  rw [pyFind_none _ _ (utf8Ignore_no_nul p h)]
  congr 1
  unfold pySlice
  dsimp only
  rw [if_neg (show ¬ (0 : Int) < 0 by omega), if_pos (show (-1 : Int) < 0 by omega)]
  rw [List.dropLast_eq_take]
  have e1 : (min (0 : Int) ((utf8Ignore p).length : Nat)).toNat = 0 := by omega
  rw [e1, List.drop_zero]
  congr 1
  omega

theorem utf8_chars (s : String) : utf8 (txt s) = (txt s).flatMap utf8Enc := rfl

/-- C65 fails: the four-byte field `ABCD` reads as `ABC`. -/
theorem C65_counterexample : stripNull (utf8 (txt "ABCD")) = txt "ABC" := by
  have e : utf8 (txt "ABCD") = [65, 66, 67, 68] := by decide +kernel
  rw [C65_no_null _ (by rw [e]; decide), utf8Ignore_utf8]
  decide +kernel

example : stripNull ([65, 66, 32] ++ 0 :: [200, 3]) = txt "AB" := by
  have e : utf8 (txt "AB ") = [65, 66, 32] := by decide +kernel
  rw [← e, C65_text_partial _ _ (by rw [e]; decide)]
  decide +kernel

theorem utf8Enc_no_zero (c : Char) (h : c ≠ Char.ofNat 0) : 0 ∉ utf8Enc c := by
  intro h0
  have hc := char_lt c
  have z : ∀ n : Nat, n < 256 → (0 : UInt8) = UInt8.ofNat n → n = 0 := by
    intro n hn e
    have := congrArg UInt8.toNat e
    rw [toNat_ofNat_lt hn] at this
    simpa using this.symm
  have hc0 : c.toNat ≠ 0 := by
    intro e
    apply h
    rw [← Char.ofNat_toNat c, e]
  unfold utf8Enc at h0
  dsimp only at h0
  split at h0
  · simp only [List.mem_cons, List.not_mem_nil, or_false] at h0
    have := z _ (by omega) h0; omega
  · split at h0
    · simp only [List.mem_cons, List.not_mem_nil, or_false] at h0
      rcases h0 with h0 | h0 <;> have := z _ (by omega) h0 <;> omega
    · split at h0
      · simp only [List.mem_cons, List.not_mem_nil, or_false] at h0
        rcases h0 with h0 | h0 | h0 <;> have := z _ (by omega) h0 <;> omega
      · simp only [List.mem_cons, List.not_mem_nil, or_false] at h0
        rcases h0 with h0 | h0 | h0 | h0 <;> have := z _ (by omega) h0 <;> omega

theorem utf8_no_zero (t : Text) (h : Char.ofNat 0 ∉ t) : 0 ∉ utf8 t := by
  simp only [utf8, List.mem_flatMap, not_exists, not_and]
  intro c hc
  exact utf8Enc_no_zero c (fun e => h (e ▸ hc))

/-- The strictly decoded strings (list items, track times, texts): everything before the first NUL, or all of it. -/
theorem C65_strict (t : Text) (s : Bytes) (h : Char.ofNat 0 ∉ t) :
    cString (utf8 t ++ 0 :: s) = .ok t ∧ cString (utf8 t) = .ok t := by
  have h0 := utf8_no_zero t h
  have hp : ∀ b ∈ utf8 t, (fun x : UInt8 => decide (x ≠ 0)) b = true := by
    intro b hb
    simp only [ne_eq, decide_not, Bool.not_eq_eq_eq_not, Bool.not_true, decide_eq_false_iff_not]
    rintro rfl
    exact h0 hb
  unfold cString
  have e2 : (utf8 t).takeWhile (fun x : UInt8 => decide (x ≠ 0)) = utf8 t := by
    have := List.takeWhile_append_of_pos (l₂ := []) hp
    simpa using this
  rw [List.takeWhile_append_of_pos hp, e2]
  simp [utf8Dec_utf8]

/-! ## C68 -/

/-- **C68.**  For every unsigned 32-bit word the swap succeeds, writes the big-endian bytes of its result as the
little-endian bytes of its argument, and applied twice gives the word back. -/
theorem C68_swap (n : Nat) (h : n < 4294967296) :
    ∃ m : Nat, m < 4294967296 ∧ swap32 n = .ok m ∧ encNat .big 4 m = encNat .little 4 n ∧ swap32 m = .ok n := by
  obtain ⟨bs, hbs⟩ : ∃ bs, bs = natToLE n 4 := ⟨_, rfl⟩
  have hl : bs.length = 4 := by rw [hbs, natToLE_length]
  have hlr : bs.reverse.length = 4 := by simp [hl]
  have hm : natToLE (leToNat bs.reverse) 4 = bs.reverse := by
    have := natToLE_leToNat bs.reverse
    rwa [hlr] at this
  have hlt : leToNat bs.reverse < 4294967296 := by
    have h1 := leToNat_natToLE (leToNat bs.reverse) 4
    rw [hm] at h1
    have h2 : (256 : Nat) ^ 4 = 4294967296 := by norm_num
    rw [h2] at h1
    rw [h1]
    exact Nat.mod_lt _ (by norm_num)
  have e1 : ∀ k : Nat, k < 4294967296 → swap32 (k : Int) = .ok (leToNat (natToLE k 4).reverse : Int) := by
    intro k hk
    unfold swap32
    rw [if_pos ⟨by omega, by omega⟩]
    simp
  refine ⟨leToNat bs.reverse, hlt, ?_, ?_, ?_⟩
  · rw [e1 n h, hbs]
  · simp only [encNat]
    rw [hm, List.reverse_reverse, hbs]
  · rw [e1 _ hlt, hm, List.reverse_reverse, hbs, leToNat_natToLE]
    congr 2
    have h2 : (256 : Nat) ^ 4 = 4294967296 := by norm_num
    rw [h2, Nat.mod_eq_of_lt h]

/-- Words read as negative numbers are refused: `OverflowError`. -/
theorem C68_negative (x : Int) : (x < 0 ∨ 4294967296 ≤ x) ↔ swap32 x = .error .overflowError := by
  unfold swap32
  split <;> simp <;> omega

example : swap32 1 = .ok 16777216 := by decide +kernel

end Gempak
