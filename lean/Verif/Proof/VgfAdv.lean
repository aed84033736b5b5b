import Verif.Props.VgfFile

/-!
# How far the vector graphic decoder moves
-/

namespace Gempak
variable {ν α β : Type}

/-- Whenever `x` succeeds, the reader has moved by at least `k` in the same bytes. -/
def Adv (x : Rd α) (k : Int) : Prop := ∀ b a b', x b = .ok (a, b') → b.offset + k ≤ b'.offset ∧ b'.data = b.data

theorem Adv.step {x : Rd α} {f : α → Rd β} {k K : Int} (hx : Adv x k) (hf : ∀ a, Adv (f a) (K - k)) : Adv (x >>= f) K := by
  intro b c b' h
  have h : Except.bind (x b) (fun p => f p.1 p.2) = .ok (c, b') := h
  cases hxb : x b with
  | error e => rw [hxb] at h; cases h
  | ok p =>
    obtain ⟨a, b1⟩ := p
    rw [hxb] at h
    obtain ⟨h1, h2⟩ := hx b a b1 hxb
    obtain ⟨h3, h4⟩ := hf a b1 c b' h
    exact ⟨by omega, h4.trans h2⟩

theorem Adv.ret {a : α} {K : Int} (h : K ≤ 0) : Adv (pure a : Rd α) K := by
  intro b c b' e
  have := (Prod.mk.inj (Except.ok.inj e)).2
  subst this
  exact ⟨by omega, rfl⟩

theorem Adv.mono {x : Rd α} {k l : Int} (h : Adv x k) (hl : l ≤ k) : Adv x l := by
  intro b a b' e
  obtain ⟨h1, h2⟩ := h b a b' e
  exact ⟨by omega, h2⟩

theorem adv_fail (e : PyErr) (K : Int) : Adv (Rd.fail e : Rd α) K := by
  intro b a b' h; cases h

theorem adv_pure (x : Except PyErr α) : Adv (Rd.pure' x) 0 := by
  intro b a b' h
  cases x with
  | error e => cases h
  | ok v =>
    have := (Prod.mk.inj (Except.ok.inj h)).2
    subst this
    exact ⟨by omega, rfl⟩

theorem dSize_eq (env : VgEnv ν) (fs : List DField) :
    fmtSize ((fs.map (DField.info env)).filterMap (·.fmt)) = dSize fs := by
  induction fs with
  | nil => rfl
  | cons f fs ih =>
    unfold dSize fmtSize at ih ⊢
    cases f <;> simp only [List.map_cons, DField.info, List.filterMap_cons, List.sum_cons, ih, Fmt.size]

theorem adv_readRec (env : VgEnv ν) (e : Endian) (fs : List DField) : Adv (readRec env e fs) (dSize fs) := by
  intro b a b' h
  unfold readRec dStruct NamedStruct.make at h
  split at h
  · cases h
  · obtain ⟨s, hs, h⟩ := bind_inv h
    have hs := Except.ok.inj hs
    subst hs
    obtain ⟨vs, hv, h⟩ := bind_inv h
    have h := (Prod.mk.inj (Except.ok.inj h)).2
    subst h
    rw [← dSize_eq env fs]
    exact ⟨le_refl _, rfl⟩

theorem adv_readBytes (n : Int) : Adv (readBytes n) 0 := by
  intro b a b' h
  have h := (Prod.mk.inj (Except.ok.inj h)).2
  subst h
  refine ⟨?_, rfl⟩
  show b.offset + 0 ≤ b.offset + ((_ : Nat) : Int)
  omega

theorem adv_skipBytes (n : Int) : Adv (skipBytes n) n := by
  intro b a b' h
  have h := (Prod.mk.inj (Except.ok.inj h)).2
  subst h
  exact ⟨le_refl _, rfl⟩

theorem adv_readWords (n : Int) : Adv (readVgWords n) (4 * max n 0) := by
  intro b a b' h
  unfold readVgWords at h
  split at h
  · cases h
  · dsimp only at h
    split at h
    · split at h
      · cases h
      · have h := (Prod.mk.inj (Except.ok.inj h)).2
        subst h
        refine ⟨?_, rfl⟩
        show b.offset + 4 * max n 0 ≤ b.offset + ((_ : Nat) : Int)
        omega
    · split at h
      · cases h
      · have h := (Prod.mk.inj (Except.ok.inj h)).2
        subst h
        refine ⟨?_, rfl⟩
        show b.offset + 4 * max n 0 ≤ b.offset + ((4 * n.toNat : Nat) : Int)
        omega

theorem adv_getLatLon (env : VgEnv ν) (n : Int) : Adv (getLatLon env n) (8 * max n 0) := by
  unfold getLatLon
  split
  · exact adv_fail _ _
  · split
    · exact (adv_readWords n).step fun _ => (adv_readWords n).step fun _ => .ret (by omega)
    · exact .ret (by omega)

theorem adv_repeat {x : Rd α} {k : Nat} (hx : Adv x k) : ∀ n : Nat, Adv (repeatRd x n) (n * k)
  | 0 => .ret (by simp)
  | n + 1 => by
    unfold repeatRd
    refine hx.step fun _ => (adv_repeat hx n).step fun _ => .ret ?_
    push_cast
    rw [add_mul]; omega

theorem adv_repeat' {x : Rd α} {k : Nat} (hx : Adv x k) (n : Int) : Adv (repeatRd x n.toNat) (max n 0 * k) := by
  refine (adv_repeat hx n.toNat).mono ?_
  exact mul_le_mul_of_nonneg_right (by omega) (by omega)

theorem adv_cstring (n : Int) : Adv (readCString n) 0 := by
  unfold readCString
  exact (adv_readBytes n).step fun _ => (adv_pure _).mono (by omega)

theorem adv_text (r : Int) (s : Nat) : Adv (readVgText r s) 0 := by
  unfold readVgText
  exact (adv_cstring _).step fun _ => .ret (by omega)

theorem adv_little : Adv readLittleF32 0 := by
  intro b a b' h
  unfold readLittleF32 at h
  obtain ⟨r, hr, h⟩ := bind_inv h
  unfold IOBuffer.readStruct at hr
  obtain ⟨vs, _, hr⟩ := bind_inv hr
  have hr := Except.ok.inj hr
  subst hr
  dsimp only at h
  split at h
  · have h := (Prod.mk.inj (Except.ok.inj h)).2
    subst h
    refine ⟨?_, rfl⟩
    show b.offset + 0 ≤ b.offset + ((_ : Nat) : Int)
    omega
  · cases h

theorem adv_block : Adv readBlock 0 := by
  intro b a b' h
  unfold readBlock at h
  obtain ⟨r, hr, h⟩ := bind_inv h
  unfold IOBuffer.readStruct at hr
  obtain ⟨vs, _, hr⟩ := bind_inv hr
  have hr := Except.ok.inj hr
  subst hr
  dsimp only at h
  split at h
  · have h := (Prod.mk.inj (Except.ok.inj h)).2
    subst h
    refine ⟨?_, rfl⟩
    show b.offset + 0 ≤ b.offset + ((_ : Nat) : Int)
    omega
  · cases h

theorem adv_count : Adv readCount 0 := by
  intro b a b' h
  have h := (Prod.mk.inj (Except.ok.inj h)).2
  subst h
  refine ⟨?_, rfl⟩
  show b.offset + 0 ≤ b.offset + ((_ : Nat) : Int)
  omega

/-- One step of a decoder. -/
macro "adv1" : tactic => `(tactic| first
  | refine Adv.step (adv_readRec _ _ _) fun _ => ?_
  | refine Adv.step (adv_pure _) fun _ => ?_
  | refine Adv.step (adv_readWords _) fun _ => ?_
  | refine Adv.step (adv_getLatLon _ _) fun _ => ?_
  | refine Adv.step (adv_skipBytes _) fun _ => ?_
  | refine Adv.step (adv_readBytes _) fun _ => ?_
  | refine Adv.step (adv_cstring _) fun _ => ?_
  | refine Adv.step (adv_text _ _) fun _ => ?_
  | refine Adv.step adv_count fun _ => ?_)

theorem adv_fronts (env : VgEnv ν) : Adv (decodeFronts env) 0 := by
  unfold decodeFronts
  repeat adv1
  exact .ret (by omega)

theorem adv_symbols (env : VgEnv ν) : Adv (decodeSymbols env) 0 := by
  unfold decodeSymbols
  repeat adv1
  exact .ret (by omega)

theorem adv_circles (env : VgEnv ν) : Adv (decodeCircles env) 0 := by
  unfold decodeCircles
  repeat adv1
  exact .ret (by omega)

theorem adv_lines (env : VgEnv ν) (h : DHdr ν) : Adv (decodeLines env h) 0 := by
  unfold decodeLines
  adv1; adv1; adv1
  split
  · exact .ret (by omega)
  · dsimp only
    repeat adv1
    exact .ret (by omega)

theorem adv_special_lines (env : VgEnv ν) (h : DHdr ν) : Adv (decodeSpecialLines env h) 0 := by
  unfold decodeSpecialLines
  adv1; adv1; adv1
  split
  · exact .ret (by omega)
  · dsimp only
    repeat adv1
    exact .ret (by omega)

theorem adv_text_body (env : VgEnv ν) (h : DHdr ν) : Adv (decodeText env h) 0 := by
  unfold decodeText
  repeat adv1
  exact .ret (by omega)

theorem adv_special_text (env : VgEnv ν) (h : DHdr ν) : Adv (decodeSpecialText env h) 0 := by
  unfold decodeSpecialText
  repeat adv1
  exact .ret (by omega)

theorem adv_sigmet (env : VgEnv ν) (h : DHdr ν) : Adv (decodeSigmet env h) 0 := by
  unfold decodeSigmet
  repeat adv1
  exact .ret (by omega)

theorem adv_ccf (env : VgEnv ν) : Adv (decodeCcf env) 0 := by
  unfold decodeCcf
  repeat adv1
  exact .ret (by omega)

theorem adv_volcanoes (env : VgEnv ν) : Adv (decodeVolcanoes env) 0 := by
  unfold decodeVolcanoes
  repeat adv1
  exact .ret (by omega)

theorem adv_ash (env : VgEnv ν) : Adv (decodeAshClouds env) 0 := by
  unfold decodeAshClouds
  repeat adv1
  exact .ret (by omega)

theorem adv_gfa (env : VgEnv ν) : Adv (decodeGfa env) 0 := by
  unfold decodeGfa
  adv1; adv1
  refine (adv_repeat' (k := 0) adv_block _).step fun _ => ?_
  repeat adv1
  exact .ret (by simp only [Nat.cast_zero, mul_zero]; omega)

theorem adv_jet (env : VgEnv ν) : Adv (decodeJet env) 0 := by
  unfold decodeJet
  have hb : dSize jetBarbInfo = 360 := rfl
  have hh : dSize jetHashInfo = 40 := rfl
  adv1; adv1; adv1; adv1; adv1; adv1
  refine (adv_repeat' (adv_readRec _ _ _) _).step fun _ => ?_
  adv1; adv1
  refine (adv_repeat' (adv_readRec _ _ _) _).step fun _ => ?_
  adv1
  refine .ret ?_
  rw [hb, hh]
  simp only [maxPoints]
  omega

theorem adv_tca (env : VgEnv ν) (h : DHdr ν) : Adv (decodeTca env h) 0 := by
  unfold decodeTca
  repeat adv1
  exact .ret (by omega)

theorem adv_tc (env : VgEnv ν) (fs : List DField) : Adv (decodeTc env fs) 0 := by
  unfold decodeTc
  adv1
  exact adv_fail _ _

theorem adv_sgwx (env : VgEnv ν) : Adv (decodeSgwx env) 0 := by
  unfold decodeSgwx
  repeat adv1
  exact .ret (by omega)

theorem adv_counties (v : Int) (w : DRec ν) : Adv (readCounties v w) 0 := by
  unfold readCounties
  split
  · exact .ret (le_refl _)
  · adv1
    dsimp only
    by_cases h5 : v < 5 <;> simp only [h5, if_true, if_false]
    · adv1; adv1
      refine Adv.step (.ret (le_refl 0)) fun _ => ?_
      split
      · refine Adv.step (.ret (le_refl 0)) fun _ => ?_
        repeat adv1
        exact .ret (by omega)
      · repeat adv1
        refine Adv.step (.ret (le_refl 0)) fun _ => ?_
        repeat adv1
        exact .ret (by omega)
    · refine Adv.step (.ret (le_refl 0)) fun _ => ?_
      split
      · refine Adv.step (.ret (le_refl 0)) fun _ => ?_
        repeat adv1
        exact .ret (by omega)
      · repeat adv1
        refine Adv.step (.ret (le_refl 0)) fun _ => ?_
        repeat adv1
        exact .ret (by omega)

theorem adv_watches (env : VgEnv ν) (h : DHdr ν) : Adv (decodeWatches env h) 0 := by
  unfold decodeWatches
  adv1; adv1
  refine (adv_counties _ _).step fun _ => ?_
  adv1; adv1; adv1
  dsimp only
  adv1
  split
  · adv1
    exact .ret (by omega)
  · refine Adv.step (adv_fail _ 0) fun _ => ?_
    exact .ret (by omega)

theorem adv_winds (env : VgEnv ν) : Adv (decodeWinds env) 0 := by
  unfold decodeWinds
  repeat adv1
  exact .ret (by omega)

theorem adv_skip (h : DHdr ν) (hr : 1 ≤ h.recordSize) : Adv (skipData h) (-39) := by
  unfold skipData
  adv1
  exact .ret (by simp only [vgfHeaderSize]; omega)

theorem adv_file_header (h : DHdr ν) : Adv (decodeFileHeader h) 0 := by
  unfold decodeFileHeader
  repeat adv1
  exact .ret (by omega)

end Gempak
