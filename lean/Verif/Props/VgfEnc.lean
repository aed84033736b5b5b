import Verif.Proof.VgfPack
import Verif.Props.Struct

/-!
# C53, C56, C57, C58: vector graphic element objects
-/

namespace Gempak

/-! ## C56: ranges -/

/-- **C56**: whatever the constructor call and whatever calls follow, the attributes of an element are in range. -/
theorem C56_ranges (n : VgNew) (e : VgElem) (hn : VgElem.make n = .ok e) (ss : List VgSet) : Spec.ElemOk (e.run ss) :=
  run_ok ss e (make_ok hn)

/-- **C56** for the file header object. -/
theorem C56_file_header (ss : List VgSet) : Spec.ElemOk (mkFileHeader.run ss) := run_ok ss _ fileHeader_ok

theorem elemOk_head {e : VgElem} (h : Spec.ElemOk e) : Spec.HeadOk e.head := by
  cases e with
  | fileHeader hd v n => exact h.1
  | line l => exact h.head
  | front f => exact h.head
  | specialLine l => exact h.head
  | specialText t => exact h.head
  | specialSymbol s => exact h.head
  | marker s => exact h.head

/-- **C56**, as in the text of the property. -/
theorem C56_header (n : VgNew) (e : VgElem) (hn : VgElem.make n = .ok e) (ss : List VgSet) :
    let h := (e.run ss).head
    (0 ≤ h.majorColor ∧ h.majorColor ≤ 32) ∧ (0 ≤ h.minorColor ∧ h.minorColor ≤ 32) ∧ (0 ≤ h.filled ∧ h.filled ≤ 8) ∧
      (0 ≤ h.smooth ∧ h.smooth ≤ 2) ∧ (0 ≤ h.closed ∧ h.closed ≤ 1) :=
  let o := elemOk_head (C56_ranges n e hn ss)
  ⟨o.majorColor, o.minorColor, o.filled, o.smooth, o.closed⟩

namespace Spec

/-- The value assigned by a call. -/
def assigned : HeadSet → Int
  | .closed v | .filled v | .smooth v | .groupType v | .groupNumber v | .majorColor v | .minorColor v => v

/-- The attribute a call is about. -/
def attr : HeadSet → VgHead → Int
  | .closed _, h => h.closed
  | .filled _, h => h.filled
  | .smooth _, h => h.smooth
  | .groupType _, h => h.groupType
  | .groupNumber _, h => h.groupNumber
  | .majorColor _, h => h.majorColor
  | .minorColor _, h => h.minorColor

/-- Do two calls concern the same attribute? -/
def sameAttr : HeadSet → HeadSet → Bool
  | .closed _, .closed _ | .filled _, .filled _ | .smooth _, .smooth _ | .groupType _, .groupType _
  | .groupNumber _, .groupNumber _ | .majorColor _, .majorColor _ | .minorColor _, .minorColor _ => true
  | _, _ => false

/-- Values a call accepts. -/
def accepts : HeadSet → Prop
  | .closed v => 0 ≤ v ∧ v ≤ 1
  | .filled v => 0 ≤ v ∧ v ≤ 8
  | .smooth v => 0 ≤ v ∧ v ≤ 2
  | .groupType v | .groupNumber v => 0 ≤ v
  | .majorColor v | .minorColor v => 0 ≤ v ∧ v ≤ 32

end Spec

theorem head_set_iff (h : VgHead) (s : HeadSet) :
    (∃ h', h.set s = .ok h') ↔ Spec.accepts s := by
  cases s <;> simp only [VgHead.set, guardSet, Spec.accepts] <;> split <;> rename_i hc <;>
    simp only [Bool.or_eq_true, beq_iff_eq, inRange_iff, decide_eq_true_eq] at hc <;>
    simp <;> omega

theorem elem_head_set (e : VgElem) (s : HeadSet) :
    (e.set (.head s)).map VgElem.head = e.head.set s := by
  cases e with
  | fileHeader hd v n =>
    show Except.map _ (Except.bind (hd.set s) _) = hd.set s
    cases hd.set s <;> rfl
  | line l =>
    show Except.map _ (Except.map VgElem.line (Except.bind (l.base.head.set s) _)) = l.base.head.set s
    cases l.base.head.set s <;> rfl
  | front f =>
    show Except.map _ (Except.map VgElem.front (Except.bind (f.head.set s) _)) = f.head.set s
    cases f.head.set s <;> rfl
  | specialLine l =>
    show Except.map _ (Except.map VgElem.specialLine (Except.bind (l.base.head.set s) _)) = l.base.head.set s
    cases l.base.head.set s <;> rfl
  | specialText t =>
    show Except.map _ (Except.map VgElem.specialText (Except.bind (t.head.set s) _)) = t.head.set s
    cases t.head.set s <;> rfl
  | specialSymbol y =>
    show Except.map _ (Except.map VgElem.specialSymbol (Except.bind (y.head.set s) _)) = y.head.set s
    cases y.head.set s <;> rfl
  | marker y =>
    show Except.map _ (Except.map VgElem.marker (Except.bind (y.head.set s) _)) = y.head.set s
    cases y.head.set s <;> rfl

/-- **C56**: on any element a header attribute is assigned exactly when its value is acceptable; then it has that value
and the other header attributes keep theirs; otherwise `ValueError` and nothing changes. -/
theorem C56_setter (e : VgElem) (s : HeadSet) :
    (Spec.accepts s → (e.step (.head s)).2 = none ∧ Spec.attr s (e.step (.head s)).1.head = Spec.assigned s ∧
      ∀ s', Spec.sameAttr s s' = false → Spec.attr s' (e.step (.head s)).1.head = Spec.attr s' e.head) ∧
    (¬ Spec.accepts s → e.step (.head s) = (e, some .valueError)) := by
  have hm := elem_head_set e s
  have hi := head_set_iff e.head s
  unfold VgElem.step
  cases hs : e.set (.head s) with
  | error x =>
    rw [hs] at hm
    have hm : e.head.set s = .error x := hm.symm
    refine ⟨fun ha => ?_, fun _ => ?_⟩
    · obtain ⟨h', hh⟩ := hi.2 ha
      rw [hm] at hh; cases hh
    · have : x = .valueError := by
        cases s <;> simp only [VgHead.set, guardSet] at hm <;> split at hm <;> first | cases hm; rfl | cases hm
      rw [this]
  | ok e' =>
    rw [hs] at hm
    have hm : e.head.set s = .ok e'.head := hm.symm
    refine ⟨fun _ => ⟨rfl, ?_, ?_⟩, fun hn => absurd (hi.1 ⟨_, hm⟩) hn⟩
    · cases s <;> obtain ⟨_, h2⟩ := guardSet_ok hm <;> dsimp only [Spec.attr, Spec.assigned] <;> rw [h2]
    · intro s' hs'
      cases s <;> obtain ⟨_, h2⟩ := guardSet_ok hm <;> cases s' <;> first
        | (dsimp only [Spec.attr]; rw [h2]; done)
        | cases hs'

/-- A call that raises leaves the element as it was. -/
theorem C56_failed (e : VgElem) (s : VgSet) (x : PyErr) (h : (e.step s).2 = some x) : (e.step s).1 = e := by
  unfold VgElem.step at *
  split at h
  · cases h
  · rfl

/-- Bounds and coordinates given at construction are never changed by later calls. -/
theorem C56_points (e : VgElem) (he : Spec.ElemOk e) (ss : List VgSet) :
    ∀ f, e.run ss = .front f → ∃ f0, e = .front f0 ∧ f.lon = f0.lon ∧ f.lat = f0.lat := by
  induction ss generalizing e with
  | nil => intro f hf; exact ⟨f, hf, rfl, rfl⟩
  | cons s ss ih =>
    intro f hf
    have hr : e.run (s :: ss) = (e.step s).1.run ss := rfl
    rw [hr] at hf
    unfold VgElem.step at hf
    cases hs : e.set s with
    | error x =>
      rw [hs] at hf
      exact ih e he f hf
    | ok e' =>
      rw [hs] at hf
      obtain ⟨f0, h0, h1, h2⟩ := ih e' (set_ok hs he) f hf
      subst h0
      cases e with
      | front f1 =>
        obtain ⟨a, ha, h3⟩ := map_ok hs
        have h3 := VgElem.front.inj h3
        subst h3
        have := front_set_ok ha he
        exact ⟨f1, rfl, h1.trans this.2.1, h2.trans this.2.2⟩
      | fileHeader hd v n =>
        cases s with
        | head s => obtain ⟨a, _, h⟩ := bind_inv hs; cases h
        | _ => cases hs
      | line l => obtain ⟨a, ha, h3⟩ := map_ok hs; cases h3
      | specialLine l => obtain ⟨a, ha, h3⟩ := map_ok hs; cases h3
      | specialText l => obtain ⟨a, ha, h3⟩ := map_ok hs; cases h3
      | specialSymbol l => obtain ⟨a, ha, h3⟩ := map_ok hs; cases h3
      | marker l => obtain ⟨a, ha, h3⟩ := map_ok hs; cases h3

/-! ## C57: front code and width -/

namespace Spec

/-- Digits of a front code: type, intensity, character. -/
structure Digits where
  type : Int
  intensity : Int
  character : Int

/-- Digits of a number up to 999. -/
def digitsOf (v : Int) : Digits := ⟨v / 100, v / 10 % 10, v % 10⟩

/-- What a call does to the digits: a code up to 999 replaces all three, a width from 1 to 8 the middle one; anything
else (refused or unrelated) nothing. -/
def Digits.after (d : Digits) : VgSet → Digits
  | .frontCode v => if 0 ≤ v ∧ v ≤ 999 then digitsOf v else d
  | .width v => if 1 ≤ v ∧ v ≤ 8 then { d with intensity := v } else d
  | _ => d

end Spec

theorem front_run (ss : List VgSet) (f : VgFront) (hf : Spec.FrontOk f) :
    ∃ f', (VgElem.front f).run ss = .front f' ∧ Spec.FrontOk f' ∧
      (⟨f'.frontType, f'.frontIntensity, f'.frontCharacter⟩ : Spec.Digits) =
        ss.foldl Spec.Digits.after ⟨f.frontType, f.frontIntensity, f.frontCharacter⟩ := by
  induction ss generalizing f with
  | nil => exact ⟨f, rfl, hf, rfl⟩
  | cons s ss ih =>
    have hr : (VgElem.front f).run (s :: ss) = ((VgElem.front f).step s).1.run ss := rfl
    have key : ∃ f1, ((VgElem.front f).step s).1 = .front f1 ∧ Spec.FrontOk f1 ∧
        (⟨f1.frontType, f1.frontIntensity, f1.frontCharacter⟩ : Spec.Digits) =
          Spec.Digits.after ⟨f.frontType, f.frontIntensity, f.frontCharacter⟩ s := by
      have hset : (VgElem.front f).set s = (f.set s).map .front := rfl
      unfold VgElem.step
      rw [hset]
      cases h : f.set s with
      | error x =>
        refine ⟨f, rfl, hf, ?_⟩
        cases s with
        | frontCode v =>
          have h : f.setCode v = .error x := h
          rw [setCode_eq] at h
          split at h
          · cases h
          · rename_i hv
            simp only [Spec.Digits.after, if_neg hv]
        | width v =>
          have h : f.setWidth v = .error x := h
          rw [setFrontWidth_eq f hf] at h
          split at h
          · cases h
          · rename_i hv
            simp only [Spec.Digits.after, if_neg hv]
        | _ => rfl
      | ok f1 =>
        refine ⟨f1, rfl, (front_set_ok h hf).1, ?_⟩
        cases s with
        | frontCode v =>
          have h : f.setCode v = .ok f1 := h
          rw [setCode_eq] at h
          split at h
          · rename_i hv
            have h := Except.ok.inj h
            subst h
            simp only [Spec.Digits.after, if_pos hv, Spec.digitsOf]
          · cases h
        | width v =>
          have h : f.setWidth v = .ok f1 := h
          rw [setFrontWidth_eq f hf] at h
          split at h
          · rename_i hv
            have h := Except.ok.inj h
            subst h
            simp only [Spec.Digits.after, if_pos hv]
          · cases h
        | head s =>
          obtain ⟨h1, _, h⟩ := bind_inv h
          have h := Except.ok.inj h
          subst h
          rfl
        | pipSize v => obtain ⟨_, rfl⟩ := guardSet_ok h; rfl
        | pipStroke v => obtain ⟨_, rfl⟩ := guardSet_ok h; rfl
        | pipDirection v => obtain ⟨_, rfl⟩ := guardSet_ok h; rfl
        | _ => have h := Except.ok.inj h; subst h; rfl
    obtain ⟨f1, h1, h2, h3⟩ := key
    obtain ⟨f', h4, h5, h6⟩ := ih f1 h2
    exact ⟨f', by rw [hr, h1, h4], h5, by rw [h6, h3]; rfl⟩

/-- **C57**: after any calls on a front its code is made of the digits last set (all three by a code, the middle one by a
width), its width is the middle digit, and type and character digits are those of the last code. -/
theorem C57_front (lon lat : List F32) (code mj : Int) (mn : Option Int) (sm ps st pd : Int) (f : VgFront)
    (hm : mkFront lon lat code mj mn sm ps st pd = .ok f) (ss : List VgSet) :
    ∃ f', (VgElem.front f).run ss = .front f' ∧
      let d := ss.foldl Spec.Digits.after (Spec.digitsOf code)
      f'.width = d.intensity ∧ f'.frontType = d.type ∧ f'.frontCharacter = d.character ∧
        f'.frontCode = 100 * d.type + 10 * d.intensity + d.character ∧ 0 ≤ f'.frontCode ∧ f'.frontCode ≤ 999 ∧
        f'.width = f'.frontCode / 10 % 10 := by
  obtain ⟨hf, _, _⟩ := mkFront_ok hm
  have hcode : f.frontCode = code := by
    unfold mkFront at hm
    obtain ⟨u, h0, h⟩ := bind_inv hm
    obtain ⟨h1, e1, h⟩ := bind_inv h
    obtain ⟨h2, e2, h⟩ := bind_inv h
    obtain ⟨h3, e3, h⟩ := bind_inv h
    obtain ⟨h4, e4, h⟩ := bind_inv h
    obtain ⟨f5, e5, h⟩ := bind_inv h
    obtain ⟨f6, e6, h⟩ := bind_inv h
    obtain ⟨f7, e7, h⟩ := bind_inv h
    obtain ⟨f8, e8, h⟩ := bind_inv h
    obtain ⟨h9, e9, h⟩ := bind_inv h
    obtain ⟨t, et, h⟩ := bind_inv h
    obtain ⟨i, ei, h⟩ := bind_inv h
    obtain ⟨c, ec, h⟩ := bind_inv h
    have hf := (Except.ok.inj h).symm
    rw [setCode_eq] at e5
    split at e5
    · have e5 := (Except.ok.inj e5).symm
      obtain ⟨g6, e6⟩ := guardSet_ok e6
      obtain ⟨g7, e7⟩ := guardSet_ok e7
      obtain ⟨g8, e8⟩ := guardSet_ok e8
      rw [hf]
      dsimp only
      rw [e8, e7, e6, e5]
    · cases e5
  have hd : (⟨f.frontType, f.frontIntensity, f.frontCharacter⟩ : Spec.Digits) = Spec.digitsOf code := by
    have h1 := hf.code
    have h2 := hf.frontType
    have h3 := hf.frontIntensity
    have h4 := hf.frontCharacter
    rw [hcode] at h1
    have e1 : f.frontType = code / 100 := by omega
    have e2 : f.frontIntensity = code / 10 % 10 := by omega
    have e3 : f.frontCharacter = code % 10 := by omega
    rw [e1, e2, e3]; rfl
  obtain ⟨f', h1, h2, h3⟩ := front_run ss f hf
  rw [hd] at h3
  refine ⟨f', h1, ?_⟩
  rw [← h3]
  have h4 := h2.code
  have h5 := h2.frontType
  have h6 := h2.frontIntensity
  have h7 := h2.frontCharacter
  have h8 := h2.width
  exact ⟨h8, rfl, rfl, h4, by omega, by omega, by omega⟩

/-! ## C58: flipping -/

/-- **C58**: flipping twice gives back the same front; flipping once negates the direction and changes nothing else. -/
theorem C58_front (f : VgFront) : (VgElem.front f).run [.flip, .flip] = .front f ∧
    (VgElem.front f).run [.flip] = .front { f with pipDirection := -f.pipDirection } := by
  constructor
  · show VgElem.front { f with pipDirection := f.pipDirection * -1 * -1 } = _
    rw [show f.pipDirection * -1 * -1 = f.pipDirection by omega]
  · show VgElem.front { f with pipDirection := f.pipDirection * -1 } = _
    rw [show f.pipDirection * -1 = -f.pipDirection by omega]

/-- **C58** for special lines. -/
theorem C58_special_line (l : VgSpecialLine) : (VgElem.specialLine l).run [.flip, .flip] = .specialLine l ∧
    (VgElem.specialLine l).run [.flip] = .specialLine { l with direction := -l.direction } := by
  constructor
  · show VgElem.specialLine { l with direction := l.direction * -1 * -1 } = _
    rw [show l.direction * -1 * -1 = l.direction by omega]
  · show VgElem.specialLine { l with direction := l.direction * -1 } = _
    rw [show l.direction * -1 = -l.direction by omega]

/-- **C58**: after any calls directions are 1 or −1. -/
theorem C58_direction (n : VgNew) (e : VgElem) (hn : VgElem.make n = .ok e) (ss : List VgSet) :
    (∀ f, e.run ss = .front f → f.pipDirection = 1 ∨ f.pipDirection = -1) ∧
      ∀ l, e.run ss = .specialLine l → l.direction = 1 ∨ l.direction = -1 := by
  have h := C56_ranges n e hn ss
  constructor
  · intro f hf; rw [hf] at h; exact h.pipDirection
  · intro l hl; rw [hl] at h; exact h.direction

/-! ## C53: record size -/

/-- **C53**: whatever the constructor call and the calls that followed, an element that encodes gives exactly as many
bytes as the record size in its header. -/
theorem C53_record_size (n : VgNew) (e : VgElem) (hn : VgElem.make n = .ok e) (ss : List VgSet) (b : Bytes)
    (hb : (e.run ss).encode = .ok b) : (b.length : Int) = (e.run ss).head.recordSize :=
  encode_length (C56_ranges n e hn ss) hb

/-- **C53**: the file header record. -/
theorem C53_file_header (ss : List VgSet) (b : Bytes) (hb : (mkFileHeader.run ss).encode = .ok b) :
    (b.length : Int) = (mkFileHeader.run ss).head.recordSize := encode_length (C56_file_header ss) hb

theorem pointsToSize_ok {v : Int} (h : v ∈ ([10, 12, 14, 18, 24, 34] : List Int)) : ∃ ts, pointsToSize v = .ok ts := by
  simp only [List.mem_cons, List.not_mem_nil, or_false] at h
  have key : ∀ i ∈ ([10, 12, 14, 18, 24, 34] : List Int), (pointsToSize i).toOption.isSome = true := by decide +kernel
  have hv := key v (by simp; omega)
  cases hp : pointsToSize v with
  | error x => rw [hp] at hv; cases hv
  | ok ts => exact ⟨ts, rfl⟩

theorem symbol_encodes {ty : Int} {s : VgSymbol} (he : Spec.SymbolOk ty s)
    (hs : inI32 s.width ∧ inI32 s.offsetX ∧ inI32 s.offsetY ∧ ∃ c, ratToF32 s.symbolCode = .ok c)
    (hg : s.head.groupType ≤ 255) (hn : s.head.groupNumber < 2 ^ 31) (ht : 0 ≤ ty ∧ ty ≤ 22 := by decide) :
    ∃ b, s.encode = .ok b := by
  obtain ⟨a1, a2, a3, a4, a5, a6⟩ := he
  obtain ⟨h1, h2, h3, c, hc⟩ := hs
  obtain ⟨b1, e1⟩ := head_packs a1 (by omega) (by omega) (by omega) hg hn
  obtain ⟨b2, e2⟩ : ∃ b, packFmts .big symbolFmts (symbolVals s c) = .ok b := by
    apply (packFmts_ok_iff .big symbolFmts _).2
    show List.Forall₂ Fits symbolFmts (symbolVals s c)
    unfold symbolFmts symbolVals
    repeat' first | exact List.Forall₂.nil | refine List.Forall₂.cons ?_ ?_
    all_goals simp only [Fits]
    all_goals first | assumption | (simp only [inI32]; omega)
  refine ⟨b1 ++ b2, ?_⟩
  show Except.bind s.head.pack _ = _
  rw [e1]
  show Except.bind (ratToF32 s.symbolCode) _ = _
  rw [hc]
  show Except.bind (packFmts .big symbolFmts (symbolVals s c)) _ = _
  rw [e2]; rfl

/-- Elements whose integers fit their fields encode. -/
theorem C53_encodes (e : VgElem) (he : Spec.ElemOk e) (hg : e.head.groupType ≤ 255) (hn : e.head.groupNumber < 2 ^ 31)
    (hf : ∀ f, e = .front f → f.pipStroke < 2 ^ 31)
    (ht : ∀ t, e = .specialText t → inI32 t.font ∧ inI32 t.width ∧ inI32 t.offsetX ∧ inI32 t.offsetY ∧
      inI32 t.turbulenceSymbol)
    (hs : ∀ s, e = .specialSymbol s ∨ e = .marker s → inI32 s.width ∧ inI32 s.offsetX ∧ inI32 s.offsetY ∧
      ∃ c, ratToF32 s.symbolCode = .ok c) : ∃ b, e.encode = .ok b := by
  cases e with
  | fileHeader hd v n =>
    obtain ⟨a1, a2, a3, a4, a5, a6⟩ := he
    obtain ⟨b1, e1⟩ := head_packs a1 (by omega) (by omega) (by omega) hg hn
    obtain ⟨b2, e2⟩ : ∃ b, packFmts .big [.str 128, .str 256] [.str v, .str n] = .ok b :=
      (packFmts_ok_iff _ _ _).2 (.cons trivial (.cons trivial .nil))
    refine ⟨b1 ++ b2, ?_⟩
    show Except.bind hd.pack _ = _
    rw [e1]
    have e2' : fileHeaderStruct.pack [("version", .str v), ("notes", .str n)] = .ok b2 := e2
    simp only [bind, Except.bind, e2']
  | line l =>
    obtain ⟨a1, a2, a3, a4, a5, a6, a7, a8, a9⟩ := he
    have p3 := a5.few
    have p4 := a5.many
    obtain ⟨b1, e1⟩ := head_packs a1 (by omega) (by omega) (by omega) hg hn
    obtain ⟨b3, e3⟩ := points_pack a5
    obtain ⟨b2, e2⟩ : ∃ b, packFmts .big lineFmts (lineVals l) = .ok b := by
      apply (packFmts_ok_iff .big lineFmts _).2
      show List.Forall₂ Fits lineFmts (lineVals l)
      unfold lineFmts lineVals
      repeat' first | exact List.Forall₂.nil | refine List.Forall₂.cons ?_ ?_
      all_goals simp only [Fits, inI32]
      all_goals omega
    refine ⟨b1 ++ b2 ++ b3, ?_⟩
    show Except.bind l.base.head.pack _ = _
    rw [e1]
    show Except.bind (packFmts .big lineFmts (lineVals l)) _ = _
    rw [e2]
    show Except.bind (packPoints _ _ _) _ = _
    rw [e3]; rfl
  | front f =>
    obtain ⟨a1, a2, a3, a4, a5, a6, a7, a8, a9, a10, a11, a12, a13, a14⟩ := he
    have p3 := a5.few
    have p4 := a5.many
    have hf := hf f rfl
    obtain ⟨b1, e1⟩ := head_packs a1 (by omega) (by omega) (by omega) hg hn
    obtain ⟨b3, e3⟩ := points_pack a5
    obtain ⟨b2, e2⟩ : ∃ b, packFmts .big frontFmts (frontVals f) = .ok b := by
      apply (packFmts_ok_iff .big frontFmts _).2
      show List.Forall₂ Fits frontFmts (frontVals f)
      unfold frontFmts frontVals
      repeat' first | exact List.Forall₂.nil | refine List.Forall₂.cons ?_ ?_
      all_goals simp only [Fits, inI32]
      all_goals omega
    refine ⟨b1 ++ b2 ++ b3, ?_⟩
    show Except.bind f.head.pack _ = _
    rw [e1]
    show Except.bind (packFmts .big frontFmts (frontVals f)) _ = _
    rw [e2]
    show Except.bind (packPoints _ _ _) _ = _
    rw [e3]; rfl
  | specialLine l =>
    obtain ⟨a1, a2, a3, a4, a5, a6, a7, a8, a9, a10⟩ := he
    have p3 := a5.few
    have p4 := a5.many
    obtain ⟨b1, e1⟩ := head_packs a1 (by omega) (by omega) (by omega) hg hn
    obtain ⟨b3, e3⟩ := points_pack a5
    obtain ⟨b2, e2⟩ : ∃ b, packFmts .big specialLineFmts (specialLineVals l) = .ok b := by
      apply (packFmts_ok_iff .big specialLineFmts _).2
      show List.Forall₂ Fits specialLineFmts (specialLineVals l)
      unfold specialLineFmts specialLineVals
      repeat' first | exact List.Forall₂.nil | refine List.Forall₂.cons ?_ ?_
      all_goals simp only [Fits, inI32]
      all_goals omega
    refine ⟨b1 ++ b2 ++ b3, ?_⟩
    show Except.bind l.base.head.pack _ = _
    rw [e1]
    show Except.bind (packFmts .big specialLineFmts (specialLineVals l)) _ = _
    rw [e2]
    show Except.bind (packPoints _ _ _) _ = _
    rw [e3]; rfl
  | specialText t =>
    obtain ⟨a1, a2, a3, a4, ⟨s, a5, a5'⟩, a6, a7, a8, a9, a10, a11, a12, a13, a14⟩ := he
    obtain ⟨t1, t2, t3, t4, t5⟩ := ht t rfl
    have hl : t.text.length ≤ 255 := by rw [a5]; simp; omega
    obtain ⟨b1, e1⟩ := head_packs a1 (by omega) (by omega) (by omega) hg hn
    obtain ⟨ts, ets⟩ := pointsToSize_ok a6
    obtain ⟨b2, e2⟩ : ∃ b, packFmts .big specialTextFmts (specialTextVals t ts) = .ok b := by
      apply (packFmts_ok_iff .big specialTextFmts _).2
      show List.Forall₂ Fits specialTextFmts (specialTextVals t ts)
      unfold specialTextFmts specialTextVals
      repeat' first | exact List.Forall₂.nil | refine List.Forall₂.cons ?_ ?_
      all_goals simp only [Fits]
      all_goals first | assumption | (simp only [inI32]; omega)
    obtain ⟨b3, e3⟩ : ∃ b, packFmts .big [.str t.text.length] [.str (utf8 t.text)] = .ok b :=
      (packFmts_ok_iff _ _ _).2 (.cons trivial .nil)
    refine ⟨b1 ++ b2 ++ b3, ?_⟩
    show Except.bind t.head.pack _ = _
    rw [e1]
    show Except.bind (pointsToSize t.size) _ = _
    rw [ets]
    show Except.bind (packFmts .big specialTextFmts (specialTextVals t ts)) _ = _
    rw [e2]
    simp only [bind, Except.bind, e3]
  | specialSymbol s => exact symbol_encodes he (hs s (Or.inl rfl)) hg hn
  | marker s => exact symbol_encodes he (hs s (Or.inr rfl)) hg hn

/-- An accepted group type that cannot be encoded. -/
theorem C53_group_type_counterexample :
    let e := VgElem.make (.line [0, 0] [0, 0] 1 1 0 0 0 1)
    ∃ l, e = .ok l ∧ (l.step (.head (.groupType 256))).2 = none ∧
      (l.step (.head (.groupType 256))).1.encode = .error .structError := by
  refine ⟨_, rfl, rfl, rfl⟩

/-! ## Concrete cases -/

/-- A line of two points; an accepted and a refused call. -/
example : ∃ e, VgElem.make (.line [0x3F800000#32, 0x40000000#32] [0x40400000#32, 0x3F800000#32] 5 1 0 0 1 3) = .ok e ∧
    (e.run [.head (.majorColor 32), .head (.majorColor 33), .width 11]).head.majorColor = 32 ∧
    (e.step (.head (.majorColor 33))).2 = some .valueError := ⟨_, rfl, rfl, rfl⟩

/-- A front 425: width 7 gives 475, the refused width 9 changes nothing, code 012 gives width 1, flipping twice is nothing. -/
example : ∃ f f', mkFront [0x3F800000#32, 0x40000000#32] [0x40400000#32, 0x3F800000#32] 425 2 none 0 100 1 1 = .ok f ∧
    (VgElem.front f).run [.width 7, .width 9] = .front f' ∧ f'.frontCode = 475 ∧ f'.width = 7 ∧ f'.frontType = 4 ∧
    ∃ f'', (VgElem.front f).run [.width 7, .frontCode 12, .frontCode 1000, .flip, .flip] = .front f'' ∧
      f''.frontCode = 12 ∧ f''.width = 1 ∧ f''.pipDirection = 1 :=
  ⟨_, _, rfl, rfl, rfl, rfl, rfl, _, rfl, rfl, rfl, rfl⟩

/-- An encoded line: 60 + 8 * 2 bytes. -/
example : ∃ e b, VgElem.make (.line [0x3F800000#32, 0x40000000#32] [0x40400000#32, 0x3F800000#32] 5 1 0 0 1 3) = .ok e ∧
    e.encode = .ok b ∧ b.length = 76 := ⟨_, _, rfl, rfl, rfl⟩

end Gempak
