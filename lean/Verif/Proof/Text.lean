import Verif.Model.Text
import Verif.Proof.Base

/-! Helper lemmas about text. -/

namespace Gempak

theorem toNat_ofNat_lt {n : Nat} (h : n < 256) : (UInt8.ofNat n).toNat = n := by
  simp only [UInt8.toNat_ofNat', Nat.reducePow]; omega

theorem contBits_ofNat {n : Nat} (h : n < 64) : contBits (UInt8.ofNat (0x80 + n)) = some n := by
  unfold contBits
  rw [toNat_ofNat_lt (by omega), if_pos (by omega), Nat.add_sub_cancel_left]

theorem char_valid (c : Char) : c.toNat.isValidChar := by
  have := c.valid
  exact this

theorem char_lt (c : Char) : c.toNat < 0x110000 := by
  have := char_valid c
  unfold Nat.isValidChar at this
  omega

theorem scalar_toNat {lo : Nat} {c : Char} (h : lo ≤ c.toNat) : scalar lo c.toNat = some c := by
  unfold scalar
  rw [if_pos ⟨h, char_valid c⟩, Char.ofNat_toNat]

theorem utf8Dec_enc (c : Char) (r : Bytes) : utf8Dec (utf8Enc c ++ r) = (utf8Dec r).map (c :: ·) := by
  have hc := char_lt c
  unfold utf8Enc
  dsimp only
  split
  · rename_i h
    simp only [List.cons_append, List.nil_append]
    rw [utf8Dec.eq_def]
    dsimp only
    rw [toNat_ofNat_lt (by omega), if_pos h, Char.ofNat_toNat]
    cases utf8Dec r <;> rfl
  · split
    · rename_i h1 h2
      simp only [List.cons_append, List.nil_append]
      rw [utf8Dec.eq_def]
      dsimp only
      rw [toNat_ofNat_lt (by omega), if_neg (by omega), if_neg (by omega), if_pos (by omega),
        contBits_ofNat (by omega)]
      have e : (0xC0 + c.toNat / 64 - 0xC0) * 64 + c.toNat % 64 = c.toNat := by omega
      simp only [Option.bind_eq_bind, Option.bind_some, e, scalar_toNat (show 0x80 ≤ c.toNat by omega)]
      cases utf8Dec r <;> rfl
    · split
      · rename_i h1 h2 h3
        simp only [List.cons_append, List.nil_append]
        rw [utf8Dec.eq_def]
        dsimp only
        rw [toNat_ofNat_lt (by omega), if_neg (by omega), if_neg (by omega), if_neg (by omega), if_pos (by omega),
          contBits_ofNat (by omega), contBits_ofNat (by omega)]
        have e : (0xE0 + c.toNat / 4096 - 0xE0) * 4096 + c.toNat / 64 % 64 * 64 + c.toNat % 64 = c.toNat := by omega
        simp only [Option.bind_eq_bind, Option.bind_some, e, scalar_toNat (show 0x800 ≤ c.toNat by omega)]
        cases utf8Dec r <;> rfl
      · rename_i h1 h2 h3
        simp only [List.cons_append, List.nil_append]
        rw [utf8Dec.eq_def]
        dsimp only
        rw [toNat_ofNat_lt (by omega), if_neg (by omega), if_neg (by omega), if_neg (by omega), if_neg (by omega),
          contBits_ofNat (by omega), contBits_ofNat (by omega), contBits_ofNat (by omega)]
        have e : (0xF0 + c.toNat / 262144 - 0xF0) * 262144 + c.toNat / 4096 % 64 * 4096 + c.toNat / 64 % 64 * 64
            + c.toNat % 64 = c.toNat := by omega
        simp only [Option.bind_eq_bind, Option.bind_some, e, scalar_toNat (show 0x10000 ≤ c.toNat by omega)]
        cases utf8Dec r <;> rfl

theorem utf8Dec_utf8 (s : Text) : utf8Dec (utf8 s) = some s := by
  induction s with
  | nil => rfl
  | cons c s ih =>
    have : utf8 (c :: s) = utf8Enc c ++ utf8 s := by simp [utf8]
    rw [this, utf8Dec_enc, ih]; rfl

theorem utf8_append (s t : Text) : utf8 (s ++ t) = utf8 s ++ utf8 t := by simp [utf8]

theorem utf8Enc_length_pos (c : Char) : 1 ≤ (utf8Enc c).length := by
  unfold utf8Enc; dsimp only; split <;> (try split) <;> (try split) <;> simp

theorem utf8_length_ge (s : Text) : s.length ≤ (utf8 s).length := by
  induction s with
  | nil => simp
  | cons c s ih =>
    have h : utf8 (c :: s) = utf8Enc c ++ utf8 s := by simp [utf8]
    have := utf8Enc_length_pos c
    rw [h]; simp; omega

theorem utf8_blanks (n : Nat) : utf8 (List.replicate n ' ') = List.replicate n 32 := by
  induction n with
  | zero => rfl
  | succ n ih =>
    have h : utf8 (List.replicate (n + 1) ' ') = utf8Enc ' ' ++ utf8 (List.replicate n ' ') := by
      simp [utf8, List.replicate_succ]
    rw [h, ih, List.replicate_succ]; rfl

theorem ljust_length (n : Nat) (s : Text) : (ljust n s).length = max n s.length := by
  simp [ljust]; omega

@[simp] theorem str4_length (s : Text) : (str4 s).length = 4 := by
  simp [str4]; omega

/-- No NUL padding ever happens: the string has been padded with blanks before. -/
theorem str4_eq (s : Text) : str4 s = (utf8 (ljust 4 s)).take 4 := by
  have h := utf8_length_ge (ljust 4 s)
  rw [ljust_length] at h
  unfold str4
  have : 4 - (utf8 (ljust 4 s)).length = 0 := by omega
  rw [this]; simp

theorem isSpace_blank : isSpace ' ' = true := by decide

/-- No white space at either end. -/
def Trimmed (s : Text) : Prop := (∀ c, s.head? = some c → isSpace c = false) ∧ (∀ c, s.getLast? = some c → isSpace c = false)

theorem dropWhile_head_false {p : Char → Bool} (s : Text) (h : ∀ c, s.head? = some c → p c = false) :
    s.dropWhile p = s := by
  cases s with
  | nil => rfl
  | cons c s => simp [h c rfl]

theorem dropWhile_replicate_append (n : Nat) (s : Text) (h : ∀ c, s.head? = some c → isSpace c = false) :
    (List.replicate n ' ' ++ s).dropWhile isSpace = s := by
  induction n with
  | zero => simpa using dropWhile_head_false s h
  | succ n ih => rw [List.replicate_succ, List.cons_append, List.dropWhile_cons, isSpace_blank, if_pos rfl, ih]

theorem strip_blanks (s : Text) (h : Trimmed s) (n : Nat) : strip (s ++ List.replicate n ' ') = s := by
  unfold strip
  cases s with
  | nil =>
    have : (List.replicate n ' ').dropWhile isSpace = [] := by
      have := dropWhile_replicate_append n [] (by simp)
      simpa using this
    simp [this]
  | cons c s =>
    have h1 : ((c :: s) ++ List.replicate n ' ').dropWhile isSpace = (c :: s) ++ List.replicate n ' ' :=
      dropWhile_head_false _ (fun d hd => h.1 d (by simpa using hd))
    rw [h1, List.reverse_append, List.reverse_replicate, dropWhile_replicate_append]
    · simp
    · intro d hd
      rw [List.head?_reverse] at hd
      exact h.2 d hd

theorem strip_trimmed (s : Text) (h : Trimmed s) : strip s = s := by
  simpa using strip_blanks s h 0

theorem strip_append_blanks (s : Text) (n : Nat) : strip (s ++ List.replicate n ' ') = strip s := by
  have hb : ∀ n, (List.replicate n ' ').dropWhile isSpace = [] := fun n => by
    have := dropWhile_replicate_append n [] (by simp)
    simpa using this
  unfold strip
  congr 1
  induction s with
  | nil => simp [hb]
  | cons c s ih =>
    rw [List.cons_append, List.dropWhile_cons, List.dropWhile_cons]
    by_cases hc : isSpace c = true
    · rw [if_pos hc, if_pos hc]; exact ih
    · rw [if_neg hc, if_neg hc, ← List.cons_append, List.reverse_append, List.reverse_replicate]
      generalize (c :: s).reverse = r
      clear ih
      induction n with
      | zero => rfl
      | succ n ih => rw [List.replicate_succ, List.cons_append, List.dropWhile_cons, isSpace_blank, if_pos rfl, ih]

/-- Decoding the four bytes written for a string that fits gives the string stripped. -/
theorem utf8Dec_str4 (s : Text) (h : (utf8 (ljust 4 s)).length = 4) : utf8Dec (str4 s) = some (ljust 4 s) := by
  rw [str4_eq, List.take_of_length_le (by omega), utf8Dec_utf8]

theorem decodeStrip_str4 (s : Text) (ht : Trimmed s) (h : (utf8 (ljust 4 s)).length = 4) :
    decodeStrip (str4 s) = .ok s := by
  unfold decodeStrip
  rw [utf8Dec_str4 s h]
  simp only
  rw [ljust, strip_blanks s ht]

/-- The four bytes written for a string that fits are read without its outer blanks. -/
theorem decodeStrip_str4_any (s : Text) (h : (utf8 (ljust 4 s)).length = 4) : decodeStrip (str4 s) = .ok (strip s) := by
  unfold decodeStrip
  rw [utf8Dec_str4 s h]
  simp only
  rw [ljust, strip_append_blanks]

/-- Text of one-byte characters. -/
def Ascii (s : Text) : Prop := ∀ c ∈ s, c.toNat < 128

theorem utf8_ascii_length (s : Text) (h : Ascii s) : (utf8 s).length = s.length := by
  induction s with
  | nil => rfl
  | cons c s ih =>
    have hc : c.toNat < 0x80 := h c List.mem_cons_self
    have h2 : utf8 (c :: s) = utf8Enc c ++ utf8 s := by simp [utf8]
    have h3 : (utf8Enc c).length = 1 := by unfold utf8Enc; simp [hc]
    rw [h2, List.length_append, h3, ih (fun d hd => h d (List.mem_cons_of_mem _ hd)), List.length_cons]; omega

theorem ljust_ascii (n : Nat) (s : Text) (h : Ascii s) : Ascii (ljust n s) := by
  intro c hc
  simp only [ljust, List.mem_append] at hc
  rcases hc with hc | hc
  · exact h c hc
  · have := List.eq_of_mem_replicate hc; subst this; decide

theorem fits_of_ascii (s : Text) (h : Ascii s) (hl : s.length ≤ 4) : (utf8 (ljust 4 s)).length = 4 := by
  rw [utf8_ascii_length _ (ljust_ascii 4 s h), ljust_length]; omega

theorem toNat_ofNat_valid {n : Nat} (h : n.isValidChar) : (Char.ofNat n).toNat = n := by
  unfold Char.ofNat
  rw [dif_pos h]
  unfold Char.toNat Char.ofNatAux
  simp [UInt32.toNat]

theorem contBits_some {b : UInt8} {n : Nat} (h : contBits b = some n) : b.toNat = 0x80 + n ∧ n < 64 := by
  unfold contBits at h
  split at h
  · simp only [Option.some.injEq] at h; omega
  · cases h

theorem scalar_some {lo n : Nat} {c : Char} (h : scalar lo n = some c) : c.toNat = n ∧ lo ≤ n := by
  unfold scalar at h
  split at h
  · rename_i hv
    simp only [Option.some.injEq] at h
    subst h
    exact ⟨toNat_ofNat_valid hv.2, hv.1⟩
  · cases h

theorem ofNat_eq {b : UInt8} {n : Nat} (h : b.toNat = n) : UInt8.ofNat n = b := by
  apply UInt8.toNat_inj.1
  have := b.toNat_lt
  rw [toNat_ofNat_lt (by omega), h]

/-- Decoding is injective: what decodes to a text is its encoding. -/
theorem utf8Dec_some : ∀ (n : Nat) (b : Bytes) (t : Text), b.length ≤ n → utf8Dec b = some t → utf8 t = b := by
  intro n
  induction n with
  | zero =>
    intro b t hl h
    have : b = [] := List.length_eq_zero_iff.1 (by omega)
    subst this
    simp only [utf8Dec, Option.some.injEq] at h
    subst h; rfl
  | succ n ih =>
    intro b t hl h
    cases b with
    | nil =>
      simp only [utf8Dec, Option.some.injEq] at h
      subst h; rfl
    | cons b0 rest =>
      have hb0 := b0.toNat_lt
      simp only [List.length_cons] at hl
      unfold utf8Dec at h
      split at h
      · rename_i h0
        simp only [Option.bind_eq_bind, Option.bind_eq_some_iff, Option.some.injEq] at h
        obtain ⟨r, hr, rfl⟩ := h
        have h1 := ih rest r (by omega) hr
        have hv : (b0.toNat).isValidChar := Or.inl (by omega)
        have hc : (Char.ofNat b0.toNat).toNat = b0.toNat := toNat_ofNat_valid hv
        have h2 : utf8 (Char.ofNat b0.toNat :: r) = utf8Enc (Char.ofNat b0.toNat) ++ utf8 r := by simp [utf8]
        rw [h2, h1]
        unfold utf8Enc
        dsimp only
        rw [hc, if_pos h0, ofNat_eq rfl]; rfl
      · split at h
        · cases h
        · split at h
          · rename_i h0 h1 h2
            cases rest with
            | nil => cases h
            | cons b1 r =>
              simp only [Option.bind_eq_bind, Option.bind_eq_some_iff, Option.some.injEq] at h
              obtain ⟨c1, k1, c, k2, s, hs, rfl⟩ := h
              simp only [List.length_cons] at hl
              have h3 := ih r s (by omega) hs
              obtain ⟨e1, l1⟩ := contBits_some k1
              obtain ⟨e2, l2⟩ := scalar_some k2
              have h4 : utf8 (c :: s) = utf8Enc c ++ utf8 s := by simp [utf8]
              rw [h4, h3]
              unfold utf8Enc
              dsimp only
              rw [e2, if_neg (by omega), if_pos (by omega), ofNat_eq (b := b0) (by omega), ofNat_eq (b := b1) (by omega)]
              rfl
          · split at h
            · rename_i h0 h1 h2 h2'
              cases rest with
              | nil => cases h
              | cons b1 r =>
                cases r with
                | nil => cases h
                | cons b2 r =>
                  simp only [Option.bind_eq_bind, Option.bind_eq_some_iff, Option.some.injEq] at h
                  obtain ⟨c1, k1, c2, k2, c, k3, s, hs, rfl⟩ := h
                  simp only [List.length_cons] at hl
                  have h3 := ih r s (by omega) hs
                  obtain ⟨e1, l1⟩ := contBits_some k1
                  obtain ⟨e2, l2⟩ := contBits_some k2
                  obtain ⟨e3, l3⟩ := scalar_some k3
                  have h4 : utf8 (c :: s) = utf8Enc c ++ utf8 s := by simp [utf8]
                  rw [h4, h3]
                  unfold utf8Enc
                  dsimp only
                  rw [e3, if_neg (by omega), if_neg (by omega), if_pos (by omega), ofNat_eq (b := b0) (by omega),
                    ofNat_eq (b := b1) (by omega), ofNat_eq (b := b2) (by omega)]
                  rfl
            · rename_i h0 h1 h2 h2'
              cases rest with
              | nil => cases h
              | cons b1 r =>
                cases r with
                | nil => cases h
                | cons b2 r =>
                  cases r with
                  | nil => cases h
                  | cons b3 r =>
                    simp only [Option.bind_eq_bind, Option.bind_eq_some_iff, Option.some.injEq] at h
                    obtain ⟨c1, k1, c2, k2, c3, k3, c, k4, s, hs, rfl⟩ := h
                    simp only [List.length_cons] at hl
                    have h3 := ih r s (by omega) hs
                    obtain ⟨e1, l1⟩ := contBits_some k1
                    obtain ⟨e2, l2⟩ := contBits_some k2
                    obtain ⟨e3, l3⟩ := contBits_some k3
                    obtain ⟨e4, l4⟩ := scalar_some k4
                    have hmax := char_lt c
                    have h4 : utf8 (c :: s) = utf8Enc c ++ utf8 s := by simp [utf8]
                    rw [h4, h3]
                    unfold utf8Enc
                    dsimp only
                    rw [e4, if_neg (by omega), if_neg (by omega), if_neg (by omega), ofNat_eq (b := b0) (by omega),
                      ofNat_eq (b := b1) (by omega), ofNat_eq (b := b2) (by omega), ofNat_eq (b := b3) (by omega)]
                    rfl

end Gempak
