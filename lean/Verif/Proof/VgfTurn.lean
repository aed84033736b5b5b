import Verif.Proof.VgfBody
import Verif.Props.VgfEnc

/-!
# Reading back whole vector graphic records and files
-/

namespace Gempak
variable {ν : Type}

theorem fileHeader_body (env : VgEnv ν) {h : VgHead} {v n : Bytes} (he : Spec.ElemOk (.fileHeader h v n)) {b2 : Bytes}
    (h2 : packFmts .big [.str 128, .str 256] [.str v, .str n] = .ok b2)
    {b : IOBuffer} {pre rest : Bytes} (hb : At b pre (b2 ++ rest)) :
    decodeFileHeader (Spec.dHead env h) b =
      .ok ([((Spec.dElem env (.fileHeader h v n)).kind, (Spec.dElem env (.fileHeader h v n)).attrs)], adv b b2.length) := by
  obtain ⟨_, _, _, hr, hv, hn⟩ := he
  have e2 : b2 = (v.take 128 ++ List.replicate (128 - v.length) 0) ++ (n.take 256 ++ List.replicate (256 - n.length) 0) := by
    have : packFmts .big [.str 128, .str 256] [.str v, .str n] = .ok ((v.take 128 ++ List.replicate (128 - v.length) 0) ++
      ((n.take 256 ++ List.replicate (256 - n.length) 0) ++ [])) := rfl
    rw [this] at h2
    have := Except.ok.inj h2
    rw [← this, List.append_nil]
  have lv : v.length = 14 := by rw [hv]; decide +kernel
  have ln : n.length = 29 := by rw [hn]; decide +kernel
  have sv : stripNull (v.take 128 ++ List.replicate (128 - v.length) 0) = txt "Version 7.19.0" := by
    rw [List.take_of_length_le (by omega), lv, hv]
    exact (C65_text_partial (txt "Version 7.19.0") (List.replicate 113 0) (by decide +kernel)).trans (by decide +kernel)
  have sn : stripNull (n.take 256 ++ List.replicate (256 - n.length) 0) = txt "NAWIPS Vector Graphic Format" := by
    rw [List.take_of_length_le (by omega), ln, hn]
    exact (C65_text_partial (txt "NAWIPS Vector Graphic Format ") (List.replicate 226 0) (by decide +kernel)).trans
      (by decide +kernel)
  rw [e2, List.append_assoc] at hb
  have r1 := readBytes_at hb (n := 128) (by simp; omega)
  have r2 := readBytes_at hb.adv (n := (Spec.dHead env h).recordSize - vgfHeaderSize - 128) (by
    show h.recordSize - 40 - 128 = _
    simp; omega)
  unfold decodeFileHeader
  refine (rd_ok r1).trans ?_
  refine (rd_ok r2).trans ?_
  rw [sv, sn, adv_adv, ← List.length_append, ← e2]
  rfl

/-- The header of an element that was built is valid in a file at least as long as the element. -/
theorem valid_head (env : VgEnv ν) {e : VgElem} (he : Spec.ElemOk e) {n : Nat} (hn : e.head.recordSize ≤ n) :
    invalidHeader n (Spec.dHead env e.head) = false := by
  have hh := elemOk_head he
  have hd := hh.delete
  have h1 := hh.majorColor
  have h2 := hh.minorColor
  have hty : validType e.head.vgType = true ∧ validClass e.head.vgClass = true := by
    cases e with
    | fileHeader h v n => obtain ⟨_, a, b, _⟩ := he; simp only [VgElem.head, a, b]; decide
    | line l => simp only [VgElem.head, he.vgType, he.vgClass]; decide
    | front f => simp only [VgElem.head, he.vgType, he.vgClass]; decide
    | specialLine l => simp only [VgElem.head, he.vgType, he.vgClass]; decide
    | specialText t => simp only [VgElem.head, he.vgType, he.vgClass]; decide
    | specialSymbol s => simp only [VgElem.head, he.vgType, he.vgClass]; decide
    | marker s => simp only [VgElem.head, he.vgType, he.vgClass]; decide
  have hp : 0 ≤ e.head.vgType := by
    have := hty.1
    unfold validType at this
    simp at this; omega
  unfold invalidHeader
  simp only [Spec.dHead, hty.1, hty.2, hd]
  simp only [Bool.not_true, Bool.or_false, Bool.or_eq_false_iff, decide_eq_false_iff_not]
  refine ⟨⟨⟨⟨⟨⟨⟨?_, ?_⟩, ?_⟩, ?_⟩, ?_⟩, ?_⟩, ?_⟩, ?_⟩ <;> omega

/-- The group list after an element. -/
def seen (gs : List Int) (e : VgElem) : List Int :=
  if e.head.groupType ∉ gs ∧ e.head.groupType ≠ 0 ∧ e.head.vgClass ≠ 0 then gs ++ [e.head.groupType] else gs

theorem body_at (env : VgEnv ν) {e : VgElem} (he : Spec.ElemOk e) (hp : Spec.Plain e) {b1 b2 b3 : Bytes}
    (hc : Encoded e b1 b2 b3) {b : IOBuffer} {pre rest : Bytes} (hb : At b pre (b2 ++ b3 ++ rest)) :
    decodeBody env (Spec.dHead env e.head) b =
      .ok ([((Spec.dElem env e).kind, (Spec.dElem env e).attrs)], adv b (b2 ++ b3).length) := by
  cases hc with
  | fileHeader h1 h2 => exact absurd hp id
  | line h1 h2 h3 =>
    have := line_body env he h2 h3 hb
    unfold decodeBody
    simp only [VgElem.head, Spec.dHead, he.vgClass, he.vgType] at this ⊢
    exact this
  | front h1 h2 h3 =>
    have := front_body env he h2 h3 hb
    unfold decodeBody
    simp only [VgElem.head, Spec.dHead, he.vgClass, he.vgType]
    exact this
  | specialLine h1 h2 h3 =>
    have := specialLine_body env he h2 h3 hb
    unfold decodeBody
    simp only [VgElem.head, Spec.dHead, he.vgClass, he.vgType] at this ⊢
    exact this
  | specialText h1 hs h2 h3 =>
    have := specialText_body env he hp hs h2 h3 hb
    unfold decodeBody
    simp only [VgElem.head, Spec.dHead, he.vgClass, he.vgType] at this ⊢
    exact this
  | specialSymbol h1 hs h2 =>
    rw [List.append_nil] at hb ⊢
    have := symbol_body env he hp hs h2 hb
    unfold decodeBody
    simp only [VgElem.head, Spec.dHead, he.vgClass, he.vgType]
    exact this
  | marker h1 hs h2 =>
    rw [List.append_nil] at hb ⊢
    have := symbol_body env he hp hs h2 hb
    unfold decodeBody
    simp only [VgElem.head, Spec.dHead, he.vgClass, he.vgType]
    exact this

theorem encoded_head {e : VgElem} {b1 b2 b3 : Bytes} (hc : Encoded e b1 b2 b3) :
    packFmts .big headFmts (headVals e.head) = .ok b1 := by cases hc <;> assumption

theorem At.length {b : IOBuffer} {pre x rest : Bytes} (h : At b pre (x ++ rest)) : x.length ≤ b.data.length := by
  rw [h.data]; simp only [List.length_append]; omega

/-- One turn of the loop on the bytes of an element. -/
theorem turn_at (env : VgEnv ν) {e : VgElem} (he : Spec.ElemOk e) (hp : Spec.Plain e) {x : Bytes} (hx : e.encode = .ok x)
    (s : VgState ν) {b : IOBuffer} {pre rest : Bytes} (hb : At b pre (x ++ rest)) :
    vgTurn env s b = .ok (.next { s with groups := seen s.groups e, elements := s.elements ++ [Spec.dElem env e] },
      adv b x.length) := by
  have hsz := encode_length he hx
  have hval := valid_head env he (n := b.data.length) (by have := hb.length; omega)
  obtain ⟨b1, b2, b3, rfl, hc⟩ := encode_inv hx
  have hb' := hb
  rw [List.append_assoc, List.append_assoc] at hb'
  have r1 := readHeader_at env (encoded_head hc) hb'
  have l1 : b1.length = 40 := packFmts_length (encoded_head hc)
  have hb2 := hb'.adv
  rw [l1, ← List.append_assoc] at hb2
  have r2 := body_at env he hp hc hb2
  have hd : (Spec.dElem env e).hdr = Spec.dHead env e.head := by cases e <;> rfl
  have hn0 : ¬ ((Spec.dHead env e.head).vgClass = 0 ∧ (Spec.dHead env e.head).vgType = 22) := by
    show ¬ (e.head.vgClass = 0 ∧ e.head.vgType = 22)
    cases e with
    | fileHeader h v n => exact absurd hp id
    | line l => simp only [VgElem.head, he.vgClass]; omega
    | front f => simp only [VgElem.head, he.vgClass]; omega
    | specialLine l => simp only [VgElem.head, he.vgClass]; omega
    | specialText t => simp only [VgElem.head, he.vgClass]; omega
    | specialSymbol s => simp only [VgElem.head, he.vgClass]; omega
    | marker s => simp only [VgElem.head, he.vgClass]; omega
  unfold vgTurn
  simp only [r1, bind, Except.bind, hval, Bool.false_eq_true, if_false, hn0, r2]
  rw [adv_adv, List.append_assoc b1, List.length_append (as := b1), l1]
  have : (⟨(Spec.dElem env e).kind, Spec.dHead env e.head, (Spec.dElem env e).attrs⟩ : DElem ν) = Spec.dElem env e := by
    rw [← hd]
  simp only [List.map_cons, List.map_nil, this]
  rfl

/-- One turn of the loop on the bytes of the file header. -/
theorem header_turn_at (env : VgEnv ν) {h : VgHead} {v n : Bytes} (he : Spec.ElemOk (.fileHeader h v n)) {x : Bytes}
    (hx : (VgElem.fileHeader h v n).encode = .ok x) (s : VgState ν) {b : IOBuffer} {pre rest : Bytes}
    (hb : At b pre (x ++ rest)) :
    vgTurn env s b = .ok (.next { s with header := some (Spec.dElem env (.fileHeader h v n)) }, adv b x.length) := by
  have hsz := encode_length he hx
  have hval := valid_head env he (n := b.data.length) (by have := hb.length; omega)
  obtain ⟨b1, b2, b3, rfl, hc⟩ := encode_inv hx
  cases hc with
  | fileHeader h1 h2 =>
    have hb' := hb
    rw [List.append_nil, List.append_assoc] at hb'
    have r1 := readHeader_at env h1 hb'
    have l1 : b1.length = 40 := packFmts_length h1
    have hb2 := hb'.adv
    rw [l1] at hb2
    have r2 := fileHeader_body env he h2 hb2
    obtain ⟨_, hcl, hty, _⟩ := he
    have c0 : (Spec.dHead env h).vgClass = 0 := hcl
    have t0 : (Spec.dHead env h).vgType = 22 := hty
    simp only [VgElem.head] at hval
    unfold vgTurn
    simp only [r1, bind, Except.bind, hval, Bool.false_eq_true, if_false, r2, c0, t0, and_self, if_true, ne_eq,
      not_true, and_false]
    rw [adv_adv, List.append_nil, List.length_append (as := b1), l1]
    rfl

/-- The groups recorded for a list of elements. -/
def seenAll (gs : List Int) (es : List VgElem) : List Int := es.foldl seen gs

/-- The loop on the bytes of elements followed by something. -/
theorem loop_at (env : VgEnv ν) (es : List VgElem) : ∀ (xs : List Bytes), es.mapM VgElem.encode = .ok xs →
    (∀ e ∈ es, Spec.ElemOk e ∧ Spec.Plain e) → ∀ (s : VgState ν) (b : IOBuffer) (pre rest : Bytes),
    At b pre (xs.flatten ++ rest) → ∀ fuel, vgLoop env (es.length + fuel) b s =
      vgLoop env fuel (adv b xs.flatten.length)
        { s with groups := seenAll s.groups es, elements := s.elements ++ es.map (Spec.dElem env) } := by
  induction es with
  | nil =>
    intro xs hxs _ s b pre rest hb fuel
    have := Except.ok.inj hxs
    subst this
    simp only [List.length_nil, Nat.zero_add, seenAll, List.foldl_nil, List.map_nil, List.append_nil]
    congr 1
    simp [adv]
  | cons e es ih =>
    intro xs hxs hes s b pre rest hb fuel
    rw [List.mapM_cons] at hxs
    obtain ⟨x, hx, hxs⟩ := bind_inv hxs
    obtain ⟨ys, hys, hxs⟩ := bind_inv hxs
    have hxs := Except.ok.inj hxs
    subst hxs
    rw [List.flatten_cons, List.append_assoc] at hb
    have he := hes e (by simp)
    have ht := turn_at env he.1 he.2 hx s hb
    have hlen := encode_length he.1 hx
    have hpos : 0 < x.length := by
      obtain ⟨b1, b2, b3, rfl, hc⟩ := encode_inv hx
      have l1 : b1.length = 40 := packFmts_length (encoded_head hc)
      simp only [List.length_append]; omega
    have hne : b.atEnd = false := by
      unfold IOBuffer.atEnd
      rw [hb.data, hb.offset]
      simp only [List.length_append, decide_eq_false_iff_not]
      omega
    rw [show (e :: es).length + fuel = (es.length + fuel) + 1 by simp; omega, vgLoop, hne]
    simp only [Bool.false_eq_true, if_false, ht]
    rw [ih ys hys (fun e' h' => hes e' (by simp [h'])) _ _ _ _ hb.adv fuel]
    rw [adv_adv, List.flatten_cons, List.length_append]
    simp only [List.map_cons, List.append_assoc, List.cons_append, List.nil_append]
    rfl

/-- One turn of the loop on the bytes of a special text that cannot be read. -/
theorem turn_fails (env : VgEnv ν) {e : VgElem} (he : Spec.ElemOk e) (hp : Spec.BadText e) {x : Bytes} (hx : e.encode = .ok x)
    (s : VgState ν) {b : IOBuffer} {pre rest : Bytes} (hb : At b pre (x ++ rest)) : vgTurn env s b = .error .unicodeError := by
  obtain ⟨t, rfl, hp⟩ := hp
  have hsz := encode_length he hx
  have hval := valid_head env he (n := b.data.length) (by have := hb.length; omega)
  obtain ⟨b1, b2, b3, rfl, hc⟩ := encode_inv hx
  have hb' := hb
  rw [List.append_assoc, List.append_assoc] at hb'
  have r1 := readHeader_at env (encoded_head hc) hb'
  have l1 : b1.length = 40 := packFmts_length (encoded_head hc)
  have hb2 := hb'.adv
  rw [l1, ← List.append_assoc] at hb2
  have r2 : decodeBody env (Spec.dHead env (VgElem.specialText t).head) (adv b 40) = .error .unicodeError := by
    cases hc with
    | specialText h1 hs h2 h3 =>
      have := specialText_fails env he hp h2 h3 hb2
      unfold decodeBody
      simp only [VgElem.head, Spec.dHead, he.vgClass, he.vgType] at this ⊢
      exact this
  have hn0 : ¬ ((Spec.dHead env (VgElem.specialText t).head).vgClass = 0 ∧ (Spec.dHead env (VgElem.specialText t).head).vgType = 22) := by
    show ¬ ((VgElem.specialText t).head.vgClass = 0 ∧ (VgElem.specialText t).head.vgType = 22)
    simp only [VgElem.head, he.vgClass]; omega
  unfold vgTurn
  simp only [r1, bind, Except.bind, hval, Bool.false_eq_true, if_false, hn0, r2]

theorem elem_here {e : VgElem} {x : Bytes} {b : IOBuffer} {pre rest : Bytes} (hx : e.encode = .ok x) (hb : At b pre (x ++ rest)) :
    b.atEnd = false := by
  have hpos : 0 < x.length := by
    obtain ⟨b1, b2, b3, rfl, hc⟩ := encode_inv hx
    have l1 : b1.length = 40 := packFmts_length (encoded_head hc)
    simp only [List.length_append]; omega
  unfold IOBuffer.atEnd
  rw [hb.data, hb.offset]
  simp only [List.length_append, decide_eq_false_iff_not]
  omega

/-- The loop on the bytes of elements one of which is a special text that cannot be read. -/
theorem loop_fails (env : VgEnv ν) (es : List VgElem) : ∀ (xs : List Bytes), es.mapM VgElem.encode = .ok xs →
    (∀ e ∈ es, Spec.ElemOk e ∧ (Spec.Plain e ∨ Spec.BadText e)) → (∃ e ∈ es, Spec.BadText e) → ∀ (s : VgState ν) (b : IOBuffer) (pre rest : Bytes),
    At b pre (xs.flatten ++ rest) → ∀ fuel, vgLoop env (es.length + fuel) b s = .raised .unicodeError := by
  induction es with
  | nil => intro xs _ _ h; obtain ⟨e, he, _⟩ := h; cases he
  | cons e es ih =>
    intro xs hxs hes hbad s b pre rest hb fuel
    rw [List.mapM_cons] at hxs
    obtain ⟨x, hx, hxs⟩ := bind_inv hxs
    obtain ⟨ys, hys, hxs⟩ := bind_inv hxs
    have hxs := Except.ok.inj hxs
    subst hxs
    rw [List.flatten_cons, List.append_assoc] at hb
    have hne := elem_here hx hb
    obtain ⟨he, hp⟩ := hes e (by simp)
    rw [show (e :: es).length + fuel = (es.length + fuel) + 1 by simp; omega, vgLoop, hne]
    rcases hp with hp | hp
    · have ht := turn_at env he hp hx s hb
      simp only [Bool.false_eq_true, if_false, ht]
      refine ih ys hys (fun e' h' => hes e' (by simp [h'])) ?_ _ _ _ _ hb.adv fuel
      obtain ⟨e', m, hb'⟩ := hbad
      rcases List.mem_cons.1 m with rfl | m
      · obtain ⟨t, rfl, hw⟩ := hb'
        exact absurd hp hw
      · exact ⟨e', m, hb'⟩
    · have ht := turn_fails env he hp hx s hb
      simp only [Bool.false_eq_true, if_false, ht]

theorem fileHeader_encode {es : List VgElem} {bytes : Bytes} (h : toVgf es = .ok bytes) :
    ∃ x xs, mkFileHeader.encode = .ok x ∧ es.mapM VgElem.encode = .ok xs ∧ bytes = x ++ xs.flatten := by
  unfold toVgf vgFile at h
  rw [List.mapM_cons] at h
  obtain ⟨p, hp, h⟩ := bind_inv h
  obtain ⟨x, hx, hp⟩ := bind_inv hp
  obtain ⟨xs, hxs, hp⟩ := bind_inv hp
  have hp := Except.ok.inj hp
  subst hp
  have h := Except.ok.inj h
  exact ⟨x, xs, hx, hxs, by rw [← h]; rfl⟩

/-- Opening a written file, possibly with further bytes: after the written elements the loop stands at the further bytes. -/
theorem open_at (env : VgEnv ν) {es : List VgElem} (hes : ∀ e ∈ es, Spec.ElemOk e ∧ Spec.Plain e) {bytes : Bytes}
    (h : toVgf es = .ok bytes) (tail : Bytes) (fuel : Nat) :
    openVgf env (es.length + 1 + fuel) (bytes ++ tail) =
      vgLoop env fuel (adv (IOBuffer.ofSource (bytes ++ tail)) bytes.length)
        { elements := es.map (Spec.dElem env), groups := seenAll [] es, header := some (Spec.dElem env mkFileHeader) } := by
  obtain ⟨x, xs, hx, hxs, rfl⟩ := fileHeader_encode h
  have hb : At (IOBuffer.ofSource (x ++ xs.flatten ++ tail)) [] (x ++ (xs.flatten ++ tail)) :=
    ⟨by rw [List.nil_append, ← List.append_assoc]; rfl, rfl⟩
  have ht := header_turn_at env fileHeader_ok hx ({} : VgState ν) hb
  have hlen := encode_length fileHeader_ok hx
  have hne : (IOBuffer.ofSource (x ++ xs.flatten ++ tail)).atEnd = false := by
    unfold IOBuffer.atEnd
    rw [hb.data, hb.offset]
    have : mkFileHeader.head.recordSize = 424 := rfl
    simp only [List.length_append, decide_eq_false_iff_not, List.length_nil]
    omega
  unfold openVgf
  rw [show es.length + 1 + fuel = (es.length + fuel) + 1 by omega, vgLoop, hne]
  simp only [Bool.false_eq_true, if_false]
  have ht' : vgTurn env ({} : VgState ν) (IOBuffer.ofSource (x ++ xs.flatten ++ tail)) = _ := ht
  rw [ht']
  dsimp only
  rw [loop_at env es xs hxs hes _ _ _ _ hb.adv fuel, adv_adv, ← List.length_append]
  rfl

/-- Opening a written file with a special text that cannot be read. -/
theorem open_fails (env : VgEnv ν) {es : List VgElem} (hes : ∀ e ∈ es, Spec.ElemOk e ∧ (Spec.Plain e ∨ Spec.BadText e))
    (hbad : ∃ e ∈ es, Spec.BadText e) {bytes : Bytes} (h : toVgf es = .ok bytes) (fuel : Nat) :
    openVgf env (es.length + 1 + fuel) bytes = .raised .unicodeError := by
  obtain ⟨x, xs, hx, hxs, rfl⟩ := fileHeader_encode h
  have hb : At (IOBuffer.ofSource (x ++ xs.flatten)) [] (x ++ (xs.flatten ++ [])) := ⟨by rw [List.nil_append, List.append_nil]; rfl, rfl⟩
  have ht := header_turn_at env fileHeader_ok hx ({} : VgState ν) hb
  have hne := elem_here hx hb
  unfold openVgf
  rw [show es.length + 1 + fuel = (es.length + fuel) + 1 by omega, vgLoop, hne]
  simp only [Bool.false_eq_true, if_false]
  have ht' : vgTurn env ({} : VgState ν) (IOBuffer.ofSource (x ++ xs.flatten)) = _ := ht
  rw [ht']
  dsimp only
  exact loop_fails env es xs hxs hes hbad _ _ _ _ hb.adv fuel

end Gempak
