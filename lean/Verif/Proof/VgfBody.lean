import Verif.Proof.VgfRead

/-!
# Reading back the bodies of vector graphic records
-/

namespace Gempak
variable {ν : Type}

/-! ## Coordinates -/

/-- The bytes of packed single precision numbers. -/
def f32Bytes (xs : List F32) : Bytes := xs.flatMap fun f => encNat .big 4 f.toNat

theorem packF32s (xs : List F32) : packFmts .big (List.replicate xs.length .f32) (xs.map .flt) = .ok (f32Bytes xs) := by
  induction xs with
  | nil => rfl
  | cons x xs ih =>
    show packFmts .big (.f32 :: List.replicate xs.length .f32) (.flt x :: xs.map .flt) = _
    rw [packFmts_cons .big .f32 _ (.flt x) _ rfl _ rfl, ih]
    rfl

theorem f32Bytes_append (xs ys : List F32) : f32Bytes (xs ++ ys) = f32Bytes xs ++ f32Bytes ys := by simp [f32Bytes]

theorem f32Bytes_length (xs : List F32) : (f32Bytes xs).length = 4 * xs.length := by
  have := packFmts_length (packF32s xs)
  rw [this]
  simp only [fmtSize, List.map_replicate, Fmt.size, List.sum_replicate]
  rw [Nat.nsmul_eq_mul]
  omega

theorem unpackF32s (xs : List F32) (rest : Bytes) :
    unpackItems .big (List.replicate xs.length .f32) (f32Bytes xs ++ rest) = xs.map .flt := by
  have hp := packF32s xs
  obtain ⟨y, hy, _, hun⟩ := unpackItems_packFmts .big _ _ ((packFmts_ok_iff _ _ _).1 ⟨_, hp⟩)
  rw [hp] at hy
  have hy := Except.ok.inj hy
  subst hy
  rw [hun rest]
  clear hun hp hy
  rename_i hlen
  clear hlen
  induction xs with
  | nil => rfl
  | cons x xs ih =>
    show Val.flt x :: List.zipWith canon (valFmts (List.replicate xs.length .f32)) (xs.map .flt) = _
    rw [ih]; rfl

theorem packPoints_bytes {n : Int} {lat lon : List F32} {x : Bytes} (hn : (lat.length : Int) = n) (hl : (lon.length : Int) = n)
    (hx : packPoints n lat lon = .ok x) : x = f32Bytes lat ++ f32Bytes lon := by
  unfold packPoints at hx
  have : (n * 2).toNat = (lat ++ lon).length := by simp; omega
  rw [this, packF32s, f32Bytes_append] at hx
  exact (Except.ok.inj hx).symm

theorem readVgWords_at {xs : List F32} {b : IOBuffer} {pre rest : Bytes} (hb : At b pre (f32Bytes xs ++ rest)) :
    readVgWords xs.length b = .ok (xs, adv b (f32Bytes xs).length) := by
  have hl := f32Bytes_length xs
  have ho := hb.offset
  have hd := hb.data
  unfold readVgWords
  have hlen : b.data.length = pre.length + (4 * xs.length + rest.length) := by
    rw [hd, List.length_append, List.length_append, hl]
  rw [if_neg (by omega)]
  dsimp only
  have h1 : b.data.drop b.offset.toNat = f32Bytes xs ++ rest := by
    rw [ho, hd, Int.toNat_natCast, List.drop_left]
  rw [h1, if_neg (by omega), if_neg (by rw [List.length_append, hl]; omega), Int.toNat_natCast, unpackF32s]
  rw [List.filterMap_map, hl]
  congr 2
  exact List.filterMap_some

theorem getLatLon_at (env : VgEnv ν) {lat lon : List F32} {n : Int} (hp : Spec.PointsOk lon lat n) {b : IOBuffer}
    {pre rest : Bytes} (hb : At b pre (f32Bytes lat ++ f32Bytes lon ++ rest)) :
    getLatLon env n b = .ok (some (lat.map env.array, lon.map env.array), adv b (f32Bytes lat ++ f32Bytes lon).length) := by
  obtain ⟨p1, p2, p3, p4⟩ := hp
  unfold getLatLon
  rw [if_neg (by simp only [maxPoints]; omega), if_pos (by omega)]
  rw [List.append_assoc] at hb
  have h1 := readVgWords_at hb
  rw [p2] at h1
  have h2 := readVgWords_at hb.adv
  rw [p1] at h2
  rw [rd_ok h1, rd_ok h2, adv_adv, ← List.length_append]
  rfl

/-! ## Symbol codes -/

theorem roundEven_int (m : Int) : roundEven (m : ℚ) = m := by
  unfold roundEven
  simp

/-- A natural number below 2²⁴ is packed exactly. -/
theorem ratToF32_nat (n : ℕ) (h : n < 2 ^ 24) : ∃ p, ratToF32 (n : ℚ) = .ok p ∧ f32Value p = some (n : ℚ) := by
  rcases Nat.eq_zero_or_pos n with rfl | h0
  · refine ⟨0, by simp [ratToF32], ?_⟩
    simp [f32Value]
  · have hL : Nat.log 2 n ≤ 23 := by
      have := Nat.log_lt_of_lt_pow (by omega) h
      omega
    obtain ⟨L, hLe⟩ : ∃ L, L = Nat.log 2 n := ⟨_, rfl⟩
    rw [← hLe] at hL
    have l1 : 2 ^ L ≤ n := by rw [hLe]; exact Nat.pow_log_le_self 2 (by omega)
    have l2 : n < 2 ^ (L + 1) := by rw [hLe]; exact Nat.lt_pow_succ_log_self (by omega) n
    have m1 : 2 ^ 23 ≤ n * 2 ^ (23 - L) := by
      calc 2 ^ 23 = 2 ^ L * 2 ^ (23 - L) := by rw [← pow_add]; congr 1; omega
        _ ≤ _ := Nat.mul_le_mul_right _ l1
    have m2 : n * 2 ^ (23 - L) < 2 ^ 24 := by
      calc n * 2 ^ (23 - L) < 2 ^ (L + 1) * 2 ^ (23 - L) := Nat.mul_lt_mul_of_pos_right l2 (by positivity)
        _ = 2 ^ 24 := by rw [← pow_add]; congr 1; omega
    have hlog : Int.log 2 (n : ℚ) = L := by rw [Int.log_natCast, hLe]
    have hq : (0 : ℚ) < n := by exact_mod_cast h0
    have hmag : magF32 |(n : ℚ)| = (L + 127) * 2 ^ 23 + (n * 2 ^ (23 - L) - 2 ^ 23) := by
      unfold magF32
      rw [abs_of_pos hq, hlog]
      have hmax : max ((L : Int) - 23) (-149) = (L : Int) - 23 := by omega
      dsimp only
      rw [hmax]
      have hdiv : (n : ℚ) / 2 ^ ((L : Int) - 23) = ((n * 2 ^ (23 - L) : ℕ) : Int) := by
        have : (L : Int) - 23 = -((23 - L : ℕ) : Int) := by omega
        rw [this, zpow_neg, zpow_natCast, div_inv_eq_mul]
        push_cast
        rfl
      rw [hdiv, roundEven_int, Int.toNat_natCast]
      have : ((L : Int) - 23 + 149).toNat = L + 126 := by omega
      rw [this]
      omega
    have hlt : (L + 127) * 2 ^ 23 + (n * 2 ^ (23 - L) - 2 ^ 23) < 0x7F800000 := by omega
    refine ⟨BitVec.ofNat 32 ((L + 127) * 2 ^ 23 + (n * 2 ^ (23 - L) - 2 ^ 23)), ?_, ?_⟩
    · unfold ratToF32
      rw [if_neg (ne_of_gt hq), hmag]
      dsimp only
      rw [if_neg (by omega), if_neg (not_lt.2 hq.le)]
    · rw [f32Value_normal (n * 2 ^ (23 - L)) (L + 127) m1 m2 (by omega) (by omega)]
      congr 1
      have : ((L + 127 : ℕ) : ℤ) - 150 = -((23 - L : ℕ) : ℤ) := by omega
      rw [this, zpow_neg, zpow_natCast]
      push_cast
      rw [mul_assoc, mul_inv_cancel₀ (by positivity), mul_one]

theorem symbolCode_back {n : Int} (h0 : 0 ≤ n) (h1 : n < 2 ^ 24) {p : F32} (hp : ratToF32 (n : ℚ) = .ok p) :
    f32Int p = .ok n := by
  obtain ⟨m, rfl⟩ := Int.eq_ofNat_of_zero_le h0
  obtain ⟨q, hq, hv⟩ := ratToF32_nat m (by exact_mod_cast h1)
  have hc : ((m : Int) : ℚ) = (m : ℚ) := by simp
  rw [hc, hq] at hp
  have := Except.ok.inj hp
  subst this
  exact f32Int_nat hv

/-! ## Names -/

theorem line_table : ∀ v : Fin 100, digitAt (fmtD 2 (v.val : Int)) 0 = .ok ((v.val / 10 : Nat) : Int) ∧
    (digitAt (fmtD 2 (v.val : Int)) 1 >>= enumName 0 lineTypeNames) = .ok (lineTypeNames.getD (v.val % 10) "") := by
  decide +kernel

theorem lineProps_eq {v : Int} (h0 : 0 ≤ v ∧ v ≤ 99) : (lineProps v : Except PyErr (DRec ν)) =
    .ok [("line_modifier", .int (v / 10)), ("line_style", .text (txt (lineTypeNames.getD (v % 10).toNat "")))] := by
  obtain ⟨n, rfl⟩ := Int.eq_ofNat_of_zero_le h0.1
  obtain ⟨h1, h2⟩ := line_table ⟨n, by omega⟩
  dsimp only at h1 h2
  obtain ⟨d, hd, h2⟩ := bind_inv h2
  unfold lineProps
  simp only [h1, hd, h2, bind, Except.bind]
  have : ((n : Int) % 10).toNat = n % 10 := by omega
  rw [this]
  rfl

theorem front_table : ∀ d : Fin 10, enumName 0 frontTypeNames d.val = .ok (frontTypeNames.getD d.val "") ∧
    enumName 0 frontIntensityNames d.val = .ok (frontIntensityNames.getD d.val "") ∧
    enumName 0 frontCharacterNames d.val = .ok (frontCharacterNames.getD d.val "") := by decide +kernel

theorem frontProps_eq {f : VgFront} (h : Spec.FrontOk f) : (frontProps f.frontCode : Except PyErr (DRec ν)) =
    .ok [("front_type", .text (txt (frontTypeNames.getD f.frontType.toNat ""))),
      ("front_intensity", .text (txt (frontIntensityNames.getD f.frontIntensity.toNat ""))),
      ("front_character", .text (txt (frontCharacterNames.getD f.frontCharacter.toNat "")))] := by
  have hc := h.code
  have h1 := h.frontType
  have h2 := h.frontIntensity
  have h3 := h.frontCharacter
  obtain ⟨d0, d1, d2⟩ := code_digits f.frontCode (by omega) (by omega)
  rw [show f.frontCode / 100 = f.frontType by omega] at d0
  rw [show f.frontCode / 10 % 10 = f.frontIntensity by omega] at d1
  rw [show f.frontCode % 10 = f.frontCharacter by omega] at d2
  have t1 := (front_table ⟨f.frontType.toNat, by omega⟩).1
  have t2 := (front_table ⟨f.frontIntensity.toNat, by omega⟩).2.1
  have t3 := (front_table ⟨f.frontCharacter.toNat, by omega⟩).2.2
  dsimp only at t1 t2 t3
  rw [Int.toNat_of_nonneg h1.1] at t1
  rw [Int.toNat_of_nonneg h2.1] at t2
  rw [Int.toNat_of_nonneg h3.1] at t3
  unfold frontProps
  simp only [d0, d1, d2, t1, t2, t3, bind, Except.bind]

theorem specialLine_table : ∀ d : Fin 27, 1 ≤ d.val →
    enumName 1 specialLineTypeNames d.val = .ok (specialLineTypeNames.getD (d.val - 1) "") := by decide +kernel

theorem specialLineName {v : Int} (h : 1 ≤ v ∧ v ≤ 26) :
    enumName 1 specialLineTypeNames v = .ok (specialLineTypeNames.getD (v - 1).toNat "") := by
  obtain ⟨n, rfl⟩ := Int.eq_ofNat_of_zero_le (show 0 ≤ v by omega)
  have := specialLine_table ⟨n, by omega⟩ (by dsimp only; omega)
  rw [show ((n : Int) - 1).toNat = n - 1 by omega]
  exact this

/-! ## Bodies -/

theorem closeIf_eq (h : VgHead) (hh : Spec.HeadOk h) (n : Int) (p : List ν × List ν) (h1 : (p.1.length : Int) = n)
    (h2 : (p.2.length : Int) = n) : closeIf (decide (h.closed ≠ 0) && decide (n > 2)) p =
      (Spec.ring h.closed p.1, Spec.ring h.closed p.2) := by
  have key : ∀ xs : List ν, (xs.length : Int) = n →
      (if (decide (h.closed ≠ 0) && decide (n > 2)) then xs ++ xs.head?.toList else xs) = Spec.ring h.closed xs := by
    intro xs hx
    have hc := hh.closed
    match xs with
    | [] => simp at hx; simp [Spec.ring]
    | [x] =>
      simp only [List.length_cons, List.length_nil] at hx
      rw [if_neg (by simp; omega)]; rfl
    | [x, y] =>
      simp only [List.length_cons, List.length_nil] at hx
      rw [if_neg (by simp; omega)]; rfl
    | x :: y :: z :: r =>
      simp only [List.length_cons] at hx
      unfold Spec.ring
      by_cases h1 : h.closed = 1
      · rw [if_pos (by simp [h1]; omega)]
        simp [h1]
      · rw [if_neg (by simp; omega)]
        simp [h1]
  have k1 := key p.1 h1
  have k2 := key p.2 h2
  unfold closeIf
  split at k1
  · rename_i hc
    rw [if_pos hc] at k2 ⊢
    rw [k1, k2]
  · rename_i hc
    rw [if_neg hc] at k2 ⊢
    rw [← k1, ← k2]

theorem line_body (env : VgEnv ν) {l : VgLine} (hl : Spec.LineOk l) {b2 b3 : Bytes}
    (h2 : packFmts .big lineFmts (lineVals l) = .ok b2) (h3 : packPoints l.base.numberPoints l.base.lat l.base.lon = .ok b3)
    {b : IOBuffer} {pre rest : Bytes} (hb : At b pre (b2 ++ b3 ++ rest)) :
    decodeLines env (Spec.dHead env l.base.head) b =
      .ok ([((Spec.dElem env (.line l)).kind, (Spec.dElem env (.line l)).attrs)], adv b (b2 ++ b3).length) := by
  rw [List.append_assoc] at hb
  have e3 := packPoints_bytes hl.points.lat hl.points.lon h3
  have r1 := readLine_at env h2 hb
  have hb2 := hb.adv
  rw [e3] at hb2
  have r2 := getLatLon_at env hl.points hb2
  unfold decodeLines
  refine (rd_ok r1).trans ?_
  refine (rd_pure' (a := l.base.numberPoints) (by rfl)).trans ?_
  refine (rd_ok r2).trans ?_
  refine (rd_pure' (by rfl)).trans ?_
  refine (rd_pure' (lineProps_eq hl.lineType)).trans ?_
  rw [adv_adv, ← e3, ← List.length_append]
  have hc := closeIf_eq l.base.head hl.head l.base.numberPoints (l.base.lat.map env.array, l.base.lon.map env.array)
    (by simpa using hl.points.lat) (by simpa using hl.points.lon)
  have hc' : closeIf (decide ((Spec.dHead env l.base.head).closed ≠ 0) && decide (l.base.numberPoints > 2))
    (l.base.lat.map env.array, l.base.lon.map env.array) = _ := hc
  rw [hc', ← hl.points.lon, hl.lineTypeHardware, hl.lineWidthHardware]
  rfl

theorem front_body (env : VgEnv ν) {f : VgFront} (hf : Spec.FrontOk f) {b2 b3 : Bytes}
    (h2 : packFmts .big frontFmts (frontVals f) = .ok b2) (h3 : packPoints f.numberPoints f.lat f.lon = .ok b3)
    {b : IOBuffer} {pre rest : Bytes} (hb : At b pre (b2 ++ b3 ++ rest)) :
    decodeFronts env b =
      .ok ([((Spec.dElem env (.front f)).kind, (Spec.dElem env (.front f)).attrs)], adv b (b2 ++ b3).length) := by
  rw [List.append_assoc] at hb
  have e3 := packPoints_bytes hf.points.lat hf.points.lon h3
  have r1 := readFront_at env h2 hb
  have hb2 := hb.adv
  rw [e3] at hb2
  have r2 := getLatLon_at env hf.points hb2
  have hlab : stripNull (f.label.take 4 ++ List.replicate (4 - f.label.length) 0) = txt "SPC" := by
    rw [hf.label]
    have := C65_strip_null_partial [83, 80, 67] [] (by decide)
    have e : ([83, 80, 67] : Bytes) = utf8 (txt "SPC") := by decide +kernel
    show stripNull ([83, 80, 67] ++ 0 :: []) = _
    rw [this, e, utf8Ignore_utf8]
    decide +kernel
  rw [hlab] at r1
  unfold decodeFronts
  refine (rd_ok r1).trans ?_
  refine (rd_pure' (a := f.numberPoints) (by rfl)).trans ?_
  refine (rd_ok r2).trans ?_
  refine (rd_pure' (by rfl)).trans ?_
  refine (rd_pure' (frontProps_eq hf)).trans ?_
  rw [adv_adv, ← e3, ← List.length_append, ← hf.points.lon]
  rfl

theorem specialLine_body (env : VgEnv ν) {l : VgSpecialLine} (hl : Spec.SpecialLineOk l) {b2 b3 : Bytes}
    (h2 : packFmts .big specialLineFmts (specialLineVals l) = .ok b2)
    (h3 : packPoints l.base.numberPoints l.base.lat l.base.lon = .ok b3)
    {b : IOBuffer} {pre rest : Bytes} (hb : At b pre (b2 ++ b3 ++ rest)) :
    decodeSpecialLines env (Spec.dHead env l.base.head) b =
      .ok ([((Spec.dElem env (.specialLine l)).kind, (Spec.dElem env (.specialLine l)).attrs)], adv b (b2 ++ b3).length) := by
  rw [List.append_assoc] at hb
  have e3 := packPoints_bytes hl.points.lat hl.points.lon h3
  have r1 := readSpecialLine_at env h2 hb
  have hb2 := hb.adv
  rw [e3] at hb2
  have r2 := getLatLon_at env hl.points hb2
  unfold decodeSpecialLines
  refine (rd_ok r1).trans ?_
  refine (rd_pure' (a := l.base.numberPoints) (by rfl)).trans ?_
  refine (rd_ok r2).trans ?_
  refine (rd_pure' (a := l.direction) (by rfl)).trans ?_
  refine (rd_pure' (by rfl)).trans ?_
  refine (rd_pure' (by rfl)).trans ?_
  refine (rd_pure' (by rfl)).trans ?_
  refine (rd_pure' (a := l.lineType) (by rfl)).trans ?_
  refine (rd_pure' (specialLineName hl.lineType)).trans ?_
  rw [adv_adv, ← e3, ← List.length_append]
  have hc := closeIf_eq l.base.head hl.head l.base.numberPoints (l.base.lat.map env.array, l.base.lon.map env.array)
    (by simpa using hl.points.lat) (by simpa using hl.points.lon)
  have hc' : closeIf (decide ((Spec.dHead env l.base.head).closed ≠ 0) && decide (l.base.numberPoints > 2))
    (l.base.lat.map env.array, l.base.lon.map env.array) = _ := hc
  rw [hc']
  have ho : ∀ p : List ν × List ν, (if l.direction = -1 then (p.1.reverse, p.2.reverse) else p) =
      (Spec.oriented l.direction p.1, Spec.oriented l.direction p.2) := by
    intro p; unfold Spec.oriented; split <;> rfl
  rw [ho, ← hl.points.lon]
  rfl

theorem symbol_body (env : VgEnv ν) {ty : Int} {s : VgSymbol} (hs : Spec.SymbolOk ty s)
    (hp : 0 ≤ s.symbolCode ∧ s.symbolCode < 2 ^ 24) {code : F32} {b2 : Bytes} (hc : ratToF32 s.symbolCode = .ok code)
    (h2 : packFmts .big symbolFmts (symbolVals s code) = .ok b2)
    {b : IOBuffer} {pre rest : Bytes} (hb : At b pre (b2 ++ rest)) :
    decodeSymbols env b =
      .ok ([((Spec.dElem env (.marker s)).kind, (Spec.dElem env (.marker s)).attrs)], adv b b2.length) := by
  have r1 := readSymbol_at env (symbolCode_back hp.1 hp.2 hc) h2 hb
  unfold decodeSymbols
  refine (rd_ok r1).trans ?_
  refine (rd_pure' (by rfl)).trans ?_
  refine (rd_pure' (by rfl)).trans ?_
  refine (rd_pure' (by rfl)).trans ?_
  rw [hs.numberSymbols, hs.symbolType]
  rfl

/-! ## Texts -/

theorem utf8_ascii (s : Text) (h : Ascii s) : utf8 s = s.map fun c => UInt8.ofNat c.toNat := by
  induction s with
  | nil => rfl
  | cons c s ih =>
    have hc : c.toNat < 128 := h c (by simp)
    have hs : Ascii s := fun d hd => h d (by simp [hd])
    have : utf8 (c :: s) = utf8Enc c ++ utf8 s := by simp [utf8]
    rw [this, ih hs]
    have : utf8Enc c = [UInt8.ofNat c.toNat] := by
      unfold utf8Enc
      dsimp only
      rw [if_pos hc]
    rw [this]; rfl

/-- Some bytes of one character are no text. -/
theorem utf8Dec_cut (c : Char) (n : Nat) (h0 : n ≠ 0) (hn : n < (utf8Enc c).length) : utf8Dec ((utf8Enc c).take n) = none := by
  cases h : utf8Dec ((utf8Enc c).take n) with
  | none => rfl
  | some t =>
    exfalso
    have e := utf8Dec_some _ _ t (le_refl _) h
    have el := congrArg List.length e
    rw [List.length_take] at el
    match t, e, el with
    | [], e, el => simp [utf8] at el; omega
    | d :: t, e, el =>
      have e1 : utf8 (d :: t) = utf8Enc d ++ utf8 t := by simp [utf8]
      have e2 : utf8Enc c ++ [] = utf8Enc d ++ (utf8 t ++ (utf8Enc c).drop n) := by
        rw [← List.append_assoc, ← e1, e, List.take_append_drop, List.append_nil]
      have d1 := utf8Dec_enc c []
      have d2 := utf8Dec_enc d (utf8 t ++ (utf8Enc c).drop n)
      rw [e2] at d1
      rw [d1] at d2
      have : c = d := by
        cases hx : utf8Dec (utf8 t ++ (utf8Enc c).drop n) with
        | none => rw [hx] at d2; cases d2
        | some y =>
          rw [hx] at d2
          exact (List.cons.inj (Option.some.inj d2)).1
      subst this
      rw [e1, List.length_append] at el
      omega

theorem takeWhile_all {β : Type} {q : β → Bool} {l : List β} (h : ∀ a ∈ l, q a = true) : l.takeWhile q = l := by
  have := List.takeWhile_append_of_pos (l₂ := []) h
  simpa using this

/-- What the written bytes of a text read as. -/
theorem kept_dec (s : Text) : ∀ n, utf8Dec (((utf8 s).take n).takeWhile (· ≠ 0)) = Spec.keptText s n := by
  induction s with
  | nil => intro n; simp only [utf8, List.flatMap_nil, List.take_nil, List.takeWhile_nil]; rfl
  | cons c s ih =>
    intro n
    have e1 : utf8 (c :: s) = utf8Enc c ++ utf8 s := by simp [utf8]
    rw [e1]
    unfold Spec.keptText
    by_cases h0 : n = 0
    · rw [if_pos (Or.inl h0), h0]; rfl
    by_cases hc : c = Char.ofNat 0
    · rw [if_pos (Or.inr hc), hc]
      obtain ⟨k, rfl⟩ : ∃ k, n = k + 1 := ⟨n - 1, by omega⟩
      have e2 : utf8Enc (Char.ofNat 0) = [0] := by decide
      rw [e2, List.singleton_append, List.take_succ_cons, List.takeWhile_cons_of_neg (by simp)]
      rfl
    rw [if_neg (by tauto)]
    have hz := utf8Enc_no_zero c hc
    by_cases hn : (utf8Enc c).length ≤ n
    · rw [if_pos hn, List.take_append, List.take_of_length_le hn, List.takeWhile_append_of_pos (by
        intro a ha
        simp only [ne_eq, decide_not, Bool.not_eq_eq_eq_not, Bool.not_true, decide_eq_false_iff_not]
        rintro rfl; exact hz ha), utf8Dec_enc, ih]
    · rw [if_neg hn, List.take_append_of_le_length (by omega), takeWhile_all (by
        intro a ha
        simp only [ne_eq, decide_not, Bool.not_eq_eq_eq_not, Bool.not_true, decide_eq_false_iff_not]
        rintro rfl; exact hz (List.mem_of_mem_take ha))]
      exact utf8Dec_cut c n h0 (by omega)

theorem kept_ascii (s : Text) : ∀ n, Ascii s → s.length ≤ n → Spec.keptText s n = some (s.takeWhile (· ≠ Char.ofNat 0)) := by
  induction s with
  | nil => intro n _ _; rfl
  | cons c s ih =>
    intro n h hn
    have hc : c.toNat < 128 := h c (by simp)
    have hs : Ascii s := fun d hd => h d (by simp [hd])
    rw [List.length_cons] at hn
    have e1 : (utf8Enc c).length = 1 := by
      unfold utf8Enc
      dsimp only
      rw [if_pos hc]; rfl
    unfold Spec.keptText
    by_cases hz : c = Char.ofNat 0
    · rw [if_pos (Or.inr hz), hz]; rfl
    · rw [if_neg (by rintro (h | h); · omega
                     · exact hz h), if_pos (by omega), ih _ hs (by omega), List.takeWhile_cons_of_pos (by simpa using hz)]
      rfl

/-- ASCII texts can be read. -/
theorem whole_ascii {s : Text} (h : Ascii s) : Spec.Whole s := by
  unfold Spec.Whole
  rw [kept_ascii s _ h (le_refl _)]
  rfl

theorem readBytes_at {x : Bytes} {b : IOBuffer} {pre rest : Bytes} (hb : At b pre (x ++ rest)) {n : Int}
    (hn : n = x.length) : readBytes n b = .ok (x, adv b x.length) := by
  subst hn
  unfold readBytes IOBuffer.read IOBuffer.getNext
  have hsl : pySlice b.data b.offset (b.offset + x.length) = x := by
    unfold pySlice
    rw [hb.data, hb.offset]
    dsimp only
    rw [if_neg (by omega), if_neg (by omega)]
    simp only [List.length_append]
    rw [show (min (pre.length : Int) ((pre.length + (x.length + rest.length) : Nat) : Int)).toNat = pre.length by omega,
      List.drop_left]
    have : (min ((pre.length : Int) + x.length) ((pre.length + (x.length + rest.length) : Nat) : Int) -
        min (pre.length : Int) ((pre.length + (x.length + rest.length) : Nat) : Int)).toNat = x.length := by omega
    rw [this, List.take_left]
  simp only [hsl]
  rfl

theorem text_bytes {s : Text} {b : Bytes} (h : packFmts .big [.str s.length] [.str (utf8 s)] = .ok b) : b = (utf8 s).take s.length := by
  have : packFmts .big [.str s.length] [.str (utf8 s)] =
      .ok ((utf8 s).take s.length ++ List.replicate (s.length - (utf8 s).length) 0 ++ []) := rfl
  rw [this] at h
  have := utf8_length_ge s
  rw [← Except.ok.inj h, Nat.sub_eq_zero_of_le this, List.replicate_zero, List.append_nil, List.append_nil]

theorem specialText_body (env : VgEnv ν) {t : VgSpecialText} (ht : Spec.SpecialTextOk t) (hp : Spec.Whole t.text) {ts : F32}
    {b2 b3 : Bytes} (hts : pointsToSize t.size = .ok ts)
    (h2 : packFmts .big specialTextFmts (specialTextVals t ts) = .ok b2)
    (h3 : packFmts .big [.str t.text.length] [.str (utf8 t.text)] = .ok b3)
    {b : IOBuffer} {pre rest : Bytes} (hb : At b pre (b2 ++ b3 ++ rest)) :
    decodeSpecialText env (Spec.dHead env t.head) b =
      .ok ([((Spec.dElem env (.specialText t)).kind, (Spec.dElem env (.specialText t)).attrs)], adv b (b2 ++ b3).length) := by
  rw [List.append_assoc] at hb
  have e3 : b3 = (utf8 t.text).take t.text.length := text_bytes h3
  have l3 : b3.length = t.text.length := packFmts_length h3
  have r1 := readSpecialText_at env h2 hb
  have r2 : readVgText (Spec.dHead env t.head).recordSize (dSize specialTextInfo) (adv b b2.length) =
      .ok (strip (dollarBreaks ((Spec.keptText t.text t.text.length).getD [])), adv (adv b b2.length) b3.length) := by
    unfold readVgText readCString
    have hn : (Spec.dHead env t.head).recordSize - vgfHeaderSize - (dSize specialTextInfo : Nat) = (b3.length : Int) := by
      have := ht.recordSize
      show t.head.recordSize - 40 - ((60 : Nat) : Int) = _
      omega
    have r3 := readBytes_at hb.adv hn
    have r4 : cString b3 = .ok ((Spec.keptText t.text t.text.length).getD []) := by
      unfold cString
      obtain ⟨k, hk⟩ := Option.isSome_iff_exists.1 hp
      rw [e3, kept_dec, hk]
      rfl
    have r5 : (do let b ← readBytes ((Spec.dHead env t.head).recordSize - vgfHeaderSize - (dSize specialTextInfo : Nat)); Rd.pure' (cString b))
        (adv b b2.length) = .ok ((Spec.keptText t.text t.text.length).getD [], adv (adv b b2.length) b3.length) := by
      rw [rd_ok r3, r4]; rfl
    rw [rd_ok r5]
    rfl
  unfold decodeSpecialText
  refine (rd_ok r1).trans ?_
  refine (rd_ok r2).trans ?_
  refine (rd_pure' (by rfl)).trans ?_
  refine (rd_pure' (by rfl)).trans ?_
  refine (rd_pure' (by rfl)).trans ?_
  rw [adv_adv, ← List.length_append]
  simp only [Spec.dElem, hts]
  rfl

/-- A text whose written bytes end inside a character cannot be read. -/
theorem specialText_fails (env : VgEnv ν) {t : VgSpecialText} (ht : Spec.SpecialTextOk t) (hp : ¬ Spec.Whole t.text) {ts : F32}
    {b2 b3 : Bytes} (h2 : packFmts .big specialTextFmts (specialTextVals t ts) = .ok b2)
    (h3 : packFmts .big [.str t.text.length] [.str (utf8 t.text)] = .ok b3)
    {b : IOBuffer} {pre rest : Bytes} (hb : At b pre (b2 ++ b3 ++ rest)) :
    decodeSpecialText env (Spec.dHead env t.head) b = .error .unicodeError := by
  rw [List.append_assoc] at hb
  have e3 : b3 = (utf8 t.text).take t.text.length := text_bytes h3
  have l3 : b3.length = t.text.length := packFmts_length h3
  have r1 := readSpecialText_at env h2 hb
  have r2 : readVgText (Spec.dHead env t.head).recordSize (dSize specialTextInfo) (adv b b2.length) = .error .unicodeError := by
    unfold readVgText readCString
    have hn : (Spec.dHead env t.head).recordSize - vgfHeaderSize - (dSize specialTextInfo : Nat) = (b3.length : Int) := by
      have := ht.recordSize
      show t.head.recordSize - 40 - ((60 : Nat) : Int) = _
      omega
    have r3 := readBytes_at hb.adv hn
    have r4 : cString b3 = .error .unicodeError := by
      unfold cString
      rw [e3, kept_dec]
      unfold Spec.Whole at hp
      rw [Option.not_isSome_iff_eq_none.1 hp]
    have r5 : (do let b ← readBytes ((Spec.dHead env t.head).recordSize - vgfHeaderSize - (dSize specialTextInfo : Nat)); Rd.pure' (cString b))
        (adv b b2.length) = .error .unicodeError := by
      rw [rd_ok r3, r4]; rfl
    show (Except.bind _ _) = _
    rw [r5]
    rfl
  unfold decodeSpecialText
  refine (rd_ok r1).trans ?_
  show (Except.bind _ _) = _
  rw [r2]
  rfl

end Gempak
