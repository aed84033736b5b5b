import Verif.Proof.Select
import Verif.Spec.VgfElem

/-!
# The attribute ranges of vector graphic elements are established by constructors and kept by setters
-/

namespace Gempak

theorem guardSet_ok {α : Type} {b : Bool} {a x : α} (h : guardSet b a = .ok x) : b = true ∧ x = a := by
  unfold guardSet at h
  split at h
  · rename_i hb; exact ⟨hb, (Except.ok.inj h).symm⟩
  · cases h

theorem inRange_iff {v a b : Int} : inRange v a b = true ↔ a ≤ v ∧ v < b := by simp [inRange]

theorem head_set_ok {h h' : VgHead} {s : HeadSet} (hs : h.set s = .ok h') (hh : Spec.HeadOk h) : Spec.HeadOk h' := by
  obtain ⟨a1, a2, a3, a4, a5, a6, a7, a8, a9⟩ := hh
  cases s <;> (obtain ⟨h1, rfl⟩ := guardSet_ok hs) <;>
    simp only [Bool.or_eq_true, beq_iff_eq, inRange_iff, decide_eq_true_eq] at h1 <;>
    constructor <;> first | assumption | (dsimp only; omega)

/-- Setters of the base class change neither class, type, record size nor bounds. -/
theorem head_set_same {h h' : VgHead} {s : HeadSet} (hs : h.set s = .ok h') :
    h'.vgClass = h.vgClass ∧ h'.vgType = h.vgType ∧ h'.recordSize = h.recordSize ∧ h'.minLat = h.minLat ∧
      h'.minLon = h.minLon ∧ h'.maxLat = h.maxLat ∧ h'.maxLon = h.maxLon := by
  cases s <;> (obtain ⟨h1, rfl⟩ := guardSet_ok hs) <;> exact ⟨rfl, rfl, rfl, rfl, rfl, rfl, rfl⟩

theorem head_default_ok (h : VgHead) (a : h.delete = 0) (b : h.version = 0) (c : h.closed = 0) (d : h.filled = 0)
    (e : h.smooth = 0) (f : h.groupType = 0) (g : h.groupNumber = 0) (i : h.majorColor = 0) (j : h.minorColor = 0) :
    Spec.HeadOk h := by
  constructor <;> omega

/-! ## Lines -/

theorem checkPoints_ok {lon lat : List F32} (h : checkPoints lon lat = .ok ()) :
    Spec.PointsOk lon lat lon.length := by
  unfold checkPoints maxPoints at h
  split at h
  · cases h
  · split at h
    · cases h
    · split at h
      · cases h
      · constructor <;> omega

/-- What `LineBase.__init__` leaves behind. -/
structure BaseOk (b : VgLineBase) : Prop where
  head : Spec.HeadOk b.head
  points : Spec.PointsOk b.lon b.lat b.numberPoints
  width : 1 ≤ b.width ∧ b.width ≤ 10

theorem setWidth_ok {b b' : VgLineBase} {v : Int} (h : b.setWidth v = .ok b') :
    (1 ≤ v ∧ v ≤ 10) ∧ b' = { b with width := v } := by
  obtain ⟨h1, h2⟩ := guardSet_ok h
  simp only [decide_eq_true_eq] at h1
  exact ⟨by omega, h2⟩

theorem mkLineBase_ok {lon lat : List F32} {c w cl fi sm : Int} {b : VgLineBase}
    (h : mkLineBase lon lat c w cl fi sm = .ok b) : BaseOk b ∧ b.lon = lon ∧ b.lat = lat := by
  unfold mkLineBase at h
  obtain ⟨u, h0, h⟩ := bind_inv h
  obtain ⟨h1, e1, h⟩ := bind_inv h
  obtain ⟨h2, e2, h⟩ := bind_inv h
  obtain ⟨b3, e3, h⟩ := bind_inv h
  obtain ⟨h4, e4, h⟩ := bind_inv h
  obtain ⟨h5, e5, h⟩ := bind_inv h
  obtain ⟨h6, e6, h⟩ := bind_inv h
  have hb := (Except.ok.inj h).symm
  have o1 := head_set_ok e1 (head_default_ok _ rfl rfl rfl rfl rfl rfl rfl rfl rfl)
  have o2 := head_set_ok e2 o1
  obtain ⟨hw, rfl⟩ := setWidth_ok e3
  have o4 := head_set_ok e4 o2
  have o5 := head_set_ok e5 o4
  have o6 := head_set_ok e6 o5
  subst hb
  exact ⟨⟨o6, checkPoints_ok h0, hw⟩, rfl, rfl⟩

theorem headStruct_size : elementHeaderStruct.size = 40 := rfl
theorem lineStruct_size : lineStruct.size = 20 := rfl
theorem frontStruct_size : frontStruct.size = 28 := rfl
theorem specialLineStruct_size : specialLineStruct.size = 24 := rfl
theorem specialTextStruct_size : specialTextStruct.size = 60 := rfl
theorem symbolStruct_size : symbolStruct.size = 36 := rfl
theorem fileHeaderStruct_size : fileHeaderStruct.size = 384 := rfl

theorem mkLine_ok {lon lat : List F32} {c lt cl fi sm w : Int} {l : VgLine}
    (h : mkLine lon lat c lt cl fi sm w = .ok l) : Spec.LineOk l ∧ l.base.lon = lon ∧ l.base.lat = lat := by
  unfold mkLine at h
  obtain ⟨b, hb, h⟩ := bind_inv h
  obtain ⟨hb, hlon, hlat⟩ := mkLineBase_ok hb
  obtain ⟨l1, e1, h⟩ := bind_inv h
  have hl := (Except.ok.inj h).symm
  obtain ⟨h1, rfl⟩ := guardSet_ok e1
  simp only [decide_eq_true_eq] at h1
  subst hl
  refine ⟨?_, hlon, hlat⟩
  constructor
  · exact ⟨hb.head.delete, hb.head.version, hb.head.closed, hb.head.filled, hb.head.smooth, hb.head.groupType,
      hb.head.groupNumber, hb.head.majorColor, hb.head.minorColor⟩
  · rfl
  · rfl
  · dsimp only; rw [headStruct_size, lineStruct_size]; push_cast; ring
  · exact hb.points
  · exact hb.width
  · dsimp only; omega
  · rfl
  · rfl

theorem line_set_ok {l l' : VgLine} {s : VgSet} (h : l.set s = .ok l') (hl : Spec.LineOk l) :
    Spec.LineOk l' ∧ l'.base.lon = l.base.lon ∧ l'.base.lat = l.base.lat := by
  obtain ⟨a1, a2, a3, a4, a5, a6, a7, a8, a9⟩ := hl
  cases s with
  | head s =>
    obtain ⟨h1, e1, h⟩ := bind_inv h
    have h := Except.ok.inj h; subst h
    have := head_set_same e1
    exact ⟨⟨head_set_ok e1 a1, this.1.trans a2, this.2.1.trans a3, this.2.2.1.trans a4, a5, a6, a7, a8, a9⟩, rfl, rfl⟩
  | width v =>
    obtain ⟨b, e1, h⟩ := bind_inv h
    have h := Except.ok.inj h; subst h
    obtain ⟨hw, rfl⟩ := setWidth_ok e1
    exact ⟨⟨a1, a2, a3, a4, a5, hw, a7, a8, a9⟩, rfl, rfl⟩
  | lineType v =>
    obtain ⟨h1, rfl⟩ := guardSet_ok h
    simp only [decide_eq_true_eq] at h1
    exact ⟨⟨a1, a2, a3, a4, a5, a6, by dsimp only; omega, a8, a9⟩, rfl, rfl⟩
  | flip => cases h
  | _ => have h := Except.ok.inj h; subst h; exact ⟨⟨a1, a2, a3, a4, a5, a6, a7, a8, a9⟩, rfl, rfl⟩

/-! ## Fronts -/

theorem code_table : ∀ v : Fin 1000, digitAt (fmtD 3 (v.val : Int)) 0 = .ok ((v.val / 100 : Nat) : Int) ∧
    digitAt (fmtD 3 (v.val : Int)) 1 = .ok ((v.val / 10 % 10 : Nat) : Int) ∧
    digitAt (fmtD 3 (v.val : Int)) 2 = .ok ((v.val % 10 : Nat) : Int) := by
  decide +kernel

theorem join_table : ∀ t v c : Fin 10, digitsVal (fmtD 0 (t.val : Int) ++ fmtD 0 (v.val : Int) ++ fmtD 0 (c.val : Int)) =
    .ok ((100 * t.val + 10 * v.val + c.val : Nat) : Int) := by
  decide +kernel

/-- The digits of a three-digit number as Python prints it. -/
theorem code_digits (v : Int) (h0 : 0 ≤ v) (h1 : v < 1000) :
    digitAt (fmtD 3 v) 0 = .ok (v / 100) ∧ digitAt (fmtD 3 v) 1 = .ok (v / 10 % 10) ∧
      digitAt (fmtD 3 v) 2 = .ok (v % 10) := by
  obtain ⟨n, rfl⟩ := Int.eq_ofNat_of_zero_le h0
  have := code_table ⟨n, by omega⟩
  simpa using this

theorem join_digits (t v c : Int) (ht : 0 ≤ t ∧ t ≤ 9) (hv : 0 ≤ v ∧ v ≤ 9) (hc : 0 ≤ c ∧ c ≤ 9) :
    digitsVal (fmtD 0 t ++ fmtD 0 v ++ fmtD 0 c) = .ok (100 * t + 10 * v + c) := by
  obtain ⟨t, rfl⟩ := Int.eq_ofNat_of_zero_le ht.1
  obtain ⟨v, rfl⟩ := Int.eq_ofNat_of_zero_le hv.1
  obtain ⟨c, rfl⟩ := Int.eq_ofNat_of_zero_le hc.1
  have := join_table ⟨t, by omega⟩ ⟨v, by omega⟩ ⟨c, by omega⟩
  simpa using this

theorem setCode_eq (f : VgFront) (v : Int) :
    f.setCode v = if 0 ≤ v ∧ v ≤ 999 then .ok { f with
      frontCode := v, frontType := v / 100, frontIntensity := v / 10 % 10, frontCharacter := v % 10,
      width := v / 10 % 10 } else .error .valueError := by
  unfold VgFront.setCode
  by_cases h : 0 ≤ v ∧ v ≤ 999
  · rw [if_pos h, if_pos (inRange_iff.2 ⟨h.1, by omega⟩)]
    obtain ⟨d0, d1, d2⟩ := code_digits v h.1 (by omega)
    simp only [d0, d1, d2]
    rfl
  · rw [if_neg h, if_neg (fun hh => h ⟨(inRange_iff.1 hh).1, by have := (inRange_iff.1 hh).2; omega⟩)]

theorem setFrontWidth_eq (f : VgFront) (hf : Spec.FrontOk f) (v : Int) :
    f.setWidth v = if 1 ≤ v ∧ v ≤ 8 then .ok { f with
      width := v, frontIntensity := v, frontCode := 100 * f.frontType + 10 * v + f.frontCharacter }
      else .error .valueError := by
  unfold VgFront.setWidth
  have hc := hf.code
  have h1 := hf.frontType
  have h2 := hf.frontIntensity
  have h3 := hf.frontCharacter
  by_cases h : 1 ≤ v ∧ v ≤ 8
  · rw [if_pos h, if_pos (inRange_iff.2 ⟨h.1, by omega⟩)]
    obtain ⟨d0, d1, d2⟩ := code_digits f.frontCode (by omega) (by omega)
    have q0 : f.frontCode / 100 = f.frontType := by omega
    have q2 : f.frontCode % 10 = f.frontCharacter := by omega
    rw [q0] at d0
    rw [q2] at d2
    simp only [d0, d2]
    show Except.bind (digitsVal _) _ = _
    rw [join_digits _ _ _ h1 (by omega) h3]
    rfl
  · rw [if_neg h, if_neg (fun hh => h ⟨(inRange_iff.1 hh).1, by have := (inRange_iff.1 hh).2; omega⟩)]

theorem mkFront_ok {lon lat : List F32} {fc mj : Int} {mn : Option Int} {sm ps st pd : Int} {f : VgFront}
    (h : mkFront lon lat fc mj mn sm ps st pd = .ok f) : Spec.FrontOk f ∧ f.lon = lon ∧ f.lat = lat := by
  unfold mkFront at h
  obtain ⟨u, h0, h⟩ := bind_inv h
  obtain ⟨h1, e1, h⟩ := bind_inv h
  obtain ⟨h2, e2, h⟩ := bind_inv h
  obtain ⟨h3, e3, h⟩ := bind_inv h
  obtain ⟨h4, e4, h⟩ := bind_inv h
  obtain ⟨f5, e5, h⟩ := bind_inv h
  obtain ⟨f6, e6, h⟩ := bind_inv h
  obtain ⟨f7, e7, h⟩ := bind_inv h
  obtain ⟨f8, e8, h⟩ := bind_inv h
  obtain ⟨h9, e9, h⟩ := bind_inv h
  obtain ⟨t, et, h⟩ := bind_inv h
  obtain ⟨i, ei, h⟩ := bind_inv h
  obtain ⟨c, ec, h⟩ := bind_inv h
  have hf := (Except.ok.inj h).symm
  rw [setCode_eq] at e5
  split at e5
  · rename_i hr
    have e5 := (Except.ok.inj e5).symm
    obtain ⟨g6, e6⟩ := guardSet_ok e6
    obtain ⟨g7, e7⟩ := guardSet_ok e7
    obtain ⟨g8, e8⟩ := guardSet_ok e8
    simp only [inRange_iff, Bool.or_eq_true, beq_iff_eq, decide_eq_true_eq] at g6 g7 g8
    have hcode : f8.frontCode = fc := by rw [e8, e7, e6, e5]
    obtain ⟨d0, d1, d2⟩ := code_digits fc hr.1 (by omega)
    rw [hcode, d0] at et
    rw [hcode, d1] at ei
    rw [hcode, d2] at ec
    have et := Except.ok.inj et
    have ei := Except.ok.inj ei
    have ec := Except.ok.inj ec
    have o1 := head_set_ok e1 (head_default_ok _ rfl rfl rfl rfl rfl rfl rfl rfl rfl)
    have o2 := head_set_ok e2 o1
    have o3 := head_set_ok e3 o2
    have o4 := head_set_ok e4 o3
    have hh : f8.head = h4 := by rw [e8, e7, e6, e5]
    rw [hh] at e9
    have o9 := head_set_ok e9 o4
    have s1 := head_set_same e1
    have s2 := head_set_same e2
    have s3 := head_set_same e3
    have s4 := head_set_same e4
    have s9 := head_set_same e9
    have hp := checkPoints_ok h0
    subst hf
    have hlon : f8.lon = lon := by rw [e8, e7, e6, e5]
    have hlat : f8.lat = lat := by rw [e8, e7, e6, e5]
    have hn : f8.numberPoints = lon.length := by rw [e8, e7, e6, e5]
    refine ⟨?_, hlon, hlat⟩
    constructor
    · exact ⟨o9.delete, o9.version, o9.closed, o9.filled, o9.smooth, o9.groupType, o9.groupNumber, o9.majorColor,
        o9.minorColor⟩
    · show h9.vgClass = 1
      rw [s9.1, s4.1, s3.1, s2.1, s1.1]
    · show h9.vgType = 2
      rw [s9.2.1, s4.2.1, s3.2.1, s2.2.1, s1.2.1]
    · dsimp only; rw [headStruct_size, frontStruct_size]; push_cast; ring
    · dsimp only; rw [hlon, hlat, hn]; exact hp
    · dsimp only; rw [e8, e7, e6, e5]
    · dsimp only; rw [hcode, ← et, ← ei, ← ec]; omega
    · dsimp only; omega
    · dsimp only; omega
    · dsimp only; omega
    · rfl
    · dsimp only; rw [e8, e7, e6]; dsimp only; omega
    · dsimp only; rw [e8, e7]; dsimp only; omega
    · dsimp only; rw [e8]; dsimp only; omega
  · cases e5

theorem front_set_ok {f f' : VgFront} {s : VgSet} (h : f.set s = .ok f') (hf : Spec.FrontOk f) :
    Spec.FrontOk f' ∧ f'.lon = f.lon ∧ f'.lat = f.lat := by
  have hf0 := hf
  obtain ⟨a1, a2, a3, a4, a5, a6, a7, a8, a9, a10, a11, a12, a13, a14⟩ := hf
  cases s with
  | head s =>
    obtain ⟨h1, e1, h⟩ := bind_inv h
    have h := Except.ok.inj h; subst h
    have := head_set_same e1
    exact ⟨⟨head_set_ok e1 a1, this.1.trans a2, this.2.1.trans a3, this.2.2.1.trans a4, a5, a6, a7, a8, a9, a10, a11, a12,
      a13, a14⟩, rfl, rfl⟩
  | width v =>
    have h : f.setWidth v = .ok f' := h
    rw [setFrontWidth_eq f hf0] at h
    split at h
    · have h := Except.ok.inj h; subst h
      exact ⟨⟨a1, a2, a3, a4, a5, a6, rfl, a8, by dsimp only; omega, a10, rfl, a12, a13, a14⟩, rfl, rfl⟩
    · cases h
  | frontCode v =>
    have h : f.setCode v = .ok f' := h
    rw [setCode_eq] at h
    split at h
    · have h := Except.ok.inj h; subst h
      exact ⟨⟨a1, a2, a3, a4, a5, a6, by dsimp only; omega, by dsimp only; omega, by dsimp only; omega,
        by dsimp only; omega, rfl, a12, a13, a14⟩, rfl, rfl⟩
    · cases h
  | pipSize v =>
    obtain ⟨h1, rfl⟩ := guardSet_ok h
    simp only [inRange_iff] at h1
    exact ⟨⟨a1, a2, a3, a4, a5, a6, a7, a8, a9, a10, a11, by dsimp only; omega, a13, a14⟩, rfl, rfl⟩
  | pipStroke v =>
    obtain ⟨h1, rfl⟩ := guardSet_ok h
    simp only [decide_eq_true_eq] at h1
    exact ⟨⟨a1, a2, a3, a4, a5, a6, a7, a8, a9, a10, a11, a12, by dsimp only; omega, a14⟩, rfl, rfl⟩
  | pipDirection v =>
    obtain ⟨h1, rfl⟩ := guardSet_ok h
    simp only [Bool.or_eq_true, beq_iff_eq] at h1
    exact ⟨⟨a1, a2, a3, a4, a5, a6, a7, a8, a9, a10, a11, a12, a13, by dsimp only; omega⟩, rfl, rfl⟩
  | flip =>
    have h := Except.ok.inj h; subst h
    exact ⟨⟨a1, a2, a3, a4, a5, a6, a7, a8, a9, a10, a11, a12, a13, by simp only [VgFront.flip]; omega⟩, rfl, rfl⟩
  | _ =>
    have h := Except.ok.inj h; subst h
    exact ⟨⟨a1, a2, a3, a4, a5, a6, a7, a8, a9, a10, a11, a12, a13, a14⟩, rfl, rfl⟩

/-! ## Special lines -/

theorem badSize_iff (v : F32) : badSize v = false ↔ f32Lt v 0x3DCCCCCD#32 = false ∧ f32Lt 0x41200000#32 v = false := by
  simp [badSize, f32Tenth, f32Ten]

theorem mkSpecialLine_ok {lon lat : List F32} {c lt cl fi st w sm : Int} {sz : F32} {d : Int} {l : VgSpecialLine}
    (h : mkSpecialLine lon lat c lt cl fi st w sm sz d = .ok l) :
    Spec.SpecialLineOk l ∧ l.base.lon = lon ∧ l.base.lat = lat := by
  unfold mkSpecialLine at h
  obtain ⟨b, hb, h⟩ := bind_inv h
  obtain ⟨hb, hlon, hlat⟩ := mkLineBase_ok hb
  obtain ⟨l1, e1, h⟩ := bind_inv h
  obtain ⟨l2, e2, h⟩ := bind_inv h
  obtain ⟨l3, e3, h⟩ := bind_inv h
  obtain ⟨g1, e1⟩ := guardSet_ok e1
  obtain ⟨g2, e2⟩ := guardSet_ok e2
  obtain ⟨g3, e3⟩ := guardSet_ok e3
  simp only [inRange_iff, Bool.or_eq_true, beq_iff_eq, Bool.not_eq_true'] at g1 g2 g3
  subst e1
  subst e2
  subst e3
  have key : ∀ s : Int, (s = 1 ∨ 25 ≤ s ∧ s ≤ 75) → Spec.SpecialLineOk
      { base := { b with head := { b.head with
          vgClass := 3, vgType := 20,
          recordSize := elementHeaderStruct.size + specialLineStruct.size + 4 * (b.numberPoints * 2) } },
        lineType := lt, stroke := s, direction := d, size := sz } := by
    intro s hs
    constructor
    · exact ⟨hb.head.delete, hb.head.version, hb.head.closed, hb.head.filled, hb.head.smooth, hb.head.groupType,
        hb.head.groupNumber, hb.head.majorColor, hb.head.minorColor⟩
    · rfl
    · rfl
    · dsimp only; rw [headStruct_size, specialLineStruct_size]; push_cast; ring
    · exact hb.points
    · exact hb.width
    · dsimp only; omega
    · exact hs
    · exact g2
    · exact (badSize_iff sz).1 g3
  dsimp only at h
  split at h
  · split at h
    · rename_i hs
      have h := Except.ok.inj h; subst h
      rw [inRange_iff] at hs
      exact ⟨key st (Or.inr (by omega)), hlon, hlat⟩
    · cases h
  · have h := Except.ok.inj h; subst h
    exact ⟨key 1 (Or.inl rfl), hlon, hlat⟩

theorem specialLine_set_ok {l l' : VgSpecialLine} {s : VgSet} (h : l.set s = .ok l') (hl : Spec.SpecialLineOk l) :
    Spec.SpecialLineOk l' ∧ l'.base.lon = l.base.lon ∧ l'.base.lat = l.base.lat := by
  obtain ⟨a1, a2, a3, a4, a5, a6, a7, a8, a9, a10⟩ := hl
  cases s with
  | head s =>
    obtain ⟨h1, e1, h⟩ := bind_inv h
    have h := Except.ok.inj h; subst h
    have := head_set_same e1
    exact ⟨⟨head_set_ok e1 a1, this.1.trans a2, this.2.1.trans a3, this.2.2.1.trans a4, a5, a6, a7, a8, a9, a10⟩, rfl, rfl⟩
  | width v =>
    obtain ⟨b, e1, h⟩ := bind_inv h
    have h := Except.ok.inj h; subst h
    obtain ⟨hw, rfl⟩ := setWidth_ok e1
    exact ⟨⟨a1, a2, a3, a4, a5, hw, a7, a8, a9, a10⟩, rfl, rfl⟩
  | lineType v =>
    obtain ⟨h1, rfl⟩ := guardSet_ok h
    simp only [inRange_iff] at h1
    exact ⟨⟨a1, a2, a3, a4, a5, a6, by dsimp only; omega, a8, a9, a10⟩, rfl, rfl⟩
  | direction v =>
    obtain ⟨h1, rfl⟩ := guardSet_ok h
    simp only [Bool.or_eq_true, beq_iff_eq] at h1
    exact ⟨⟨a1, a2, a3, a4, a5, a6, a7, a8, h1, a10⟩, rfl, rfl⟩
  | size v =>
    obtain ⟨h1, rfl⟩ := guardSet_ok h
    simp only [Bool.not_eq_true'] at h1
    exact ⟨⟨a1, a2, a3, a4, a5, a6, a7, a8, a9, (badSize_iff v).1 h1⟩, rfl, rfl⟩
  | flip =>
    have h := Except.ok.inj h; subst h
    exact ⟨⟨a1, a2, a3, a4, a5, a6, a7, a8, by simp only [VgSpecialLine.flip]; omega, a10⟩, rfl, rfl⟩
  | _ =>
    have h := Except.ok.inj h; subst h
    exact ⟨⟨a1, a2, a3, a4, a5, a6, a7, a8, a9, a10⟩, rfl, rfl⟩

/-! ## Special texts -/

theorem setTurbulence_ok {t t' : VgSpecialText} {v : Int} (h : t.setTurbulence v = .ok t') :
    t' = { t with turbulenceSymbol := v } ∧ (t.textType = 7 ∨ t.textType = 9 → 0 ≤ v ∧ v ≤ 8) ∧
      (t.textType = 12 → 0 ≤ v ∧ v ≤ 10) := by
  unfold VgSpecialText.setTurbulence at h
  split at h
  · cases h
  · rename_i h1
    split at h
    · cases h
    · rename_i h2
      have h := Except.ok.inj h
      refine ⟨h.symm, ?_, ?_⟩
      · intro ht
        by_contra hc
        apply h1
        have : inRange v 0 9 = false := by
          rw [← Bool.not_eq_true, inRange_iff]; omega
        simp only [this, Bool.and_eq_true, Bool.or_eq_true, beq_iff_eq, Bool.not_false, and_true]
        exact ht
      · intro ht
        by_contra hc
        apply h2
        have : inRange v 0 11 = false := by
          rw [← Bool.not_eq_true, inRange_iff]; omega
        simp only [this, Bool.and_eq_true, beq_iff_eq, Bool.not_false, and_true]
        exact ht

theorem align_mem {v : Int} (h : v ∈ ([-1, 0, 1] : List Int)) : -1 ≤ v ∧ v ≤ 1 := by
  simp only [List.mem_cons, List.not_mem_nil, or_false] at h
  omega

theorem mkSpecialText_ok {lon lat : F32} {text : Text} {tc sz tt fo al : Int} {ec fc : Option Int} {ro : F32}
    {ox oy tu : Int} {t : VgSpecialText} (h : mkSpecialText lon lat text tc sz tt fo al ec fc ro ox oy tu = .ok t) :
    Spec.SpecialTextOk t ∧ t.text = text ++ [Char.ofNat 0] ∧ t.lon = lon ∧ t.lat = lat := by
  unfold mkSpecialText at h
  obtain ⟨t1, e1, h⟩ := bind_inv h
  obtain ⟨t2, e2, h⟩ := bind_inv h
  obtain ⟨h3, e3, h⟩ := bind_inv h
  obtain ⟨h4, e4, h⟩ := bind_inv h
  obtain ⟨t5, e5, h⟩ := bind_inv h
  obtain ⟨t6, e6, h⟩ := bind_inv h
  obtain ⟨t7, e7, h⟩ := bind_inv h
  dsimp only at h
  split at h
  · cases h
  · rename_i hlen
    obtain ⟨t8, e8, h⟩ := bind_inv h
    obtain ⟨t9, e9, h⟩ := bind_inv h
    obtain ⟨t10, e10, h⟩ := bind_inv h
    obtain ⟨t11, e11, h⟩ := bind_inv h
    have ht := (Except.ok.inj h).symm
    obtain ⟨g1, e1⟩ := guardSet_ok e1
    obtain ⟨g2, e2⟩ := guardSet_ok e2
    obtain ⟨g5, e5⟩ := guardSet_ok e5
    obtain ⟨g6, e6⟩ := guardSet_ok e6
    obtain ⟨g7, e7⟩ := guardSet_ok e7
    obtain ⟨g8, e8⟩ := guardSet_ok e8
    obtain ⟨g9, e9⟩ := guardSet_ok e9
    obtain ⟨g10, e10⟩ := guardSet_ok e10
    obtain ⟨e11, g11, g11'⟩ := setTurbulence_ok e11
    simp only [inRange_iff, Bool.or_eq_true, beq_iff_eq, decide_eq_true_eq] at g1 g2 g5 g7 g8 g9 g10
    subst e1
    subst e2
    subst e5
    subst e6
    subst e7
    subst e8
    subst e9
    subst e10
    subst e11
    subst ht
    have o3 := head_set_ok e3 (head_default_ok _ rfl rfl rfl rfl rfl rfl rfl rfl rfl)
    have o4 := head_set_ok e4 o3
    refine ⟨?_, rfl, rfl, rfl⟩
    constructor
    · exact ⟨o4.delete, o4.version, o4.closed, o4.filled, o4.smooth, o4.groupType, o4.groupNumber, o4.majorColor,
        o4.minorColor⟩
    · rfl
    · rfl
    · dsimp only; rw [headStruct_size, specialTextStruct_size]; rfl
    · exact ⟨text, rfl, by omega⟩
    · exact g1
    · dsimp only; omega
    · exact Or.inr rfl
    · exact align_mem g7
    · dsimp only; omega
    · dsimp only; omega
    · dsimp only; omega
    · exact g11
    · exact g11'

theorem specialText_set_ok {t t' : VgSpecialText} {s : VgSet} (h : t.set s = .ok t') (ht : Spec.SpecialTextOk t) :
    Spec.SpecialTextOk t' ∧ t'.text = t.text ∧ t'.lon = t.lon ∧ t'.lat = t.lat := by
  obtain ⟨a1, a2, a3, a4, a5, a6, a7, a8, a9, a10, a11, a12, a13, a14⟩ := ht
  cases s with
  | head s =>
    obtain ⟨h1, e1, h⟩ := bind_inv h
    have h := Except.ok.inj h; subst h
    have := head_set_same e1
    exact ⟨⟨head_set_ok e1 a1, this.1.trans a2, this.2.1.trans a3, this.2.2.1.trans a4, a5, a6, a7, a8, a9, a10, a11, a12,
      a13, a14⟩, rfl, rfl, rfl⟩
  | points v =>
    obtain ⟨h1, rfl⟩ := guardSet_ok h
    simp only [decide_eq_true_eq] at h1
    exact ⟨⟨a1, a2, a3, a4, a5, h1, a7, a8, a9, a10, a11, a12, a13, a14⟩, rfl, rfl, rfl⟩
  | textColor v =>
    obtain ⟨h1, rfl⟩ := guardSet_ok h
    simp only [inRange_iff] at h1
    exact ⟨⟨a1, a2, a3, a4, a5, a6, by dsimp only; omega, a8, a9, a10, a11, a12, a13, a14⟩, rfl, rfl, rfl⟩
  | textFlag v =>
    obtain ⟨h1, rfl⟩ := guardSet_ok h
    simp only [Bool.or_eq_true, beq_iff_eq] at h1
    exact ⟨⟨a1, a2, a3, a4, a5, a6, a7, h1, a9, a10, a11, a12, a13, a14⟩, rfl, rfl, rfl⟩
  | font v =>
    obtain ⟨h1, rfl⟩ := guardSet_ok h
    exact ⟨⟨a1, a2, a3, a4, a5, a6, a7, a8, a9, a10, a11, a12, a13, a14⟩, rfl, rfl, rfl⟩
  | align v =>
    obtain ⟨h1, rfl⟩ := guardSet_ok h
    simp only [decide_eq_true_eq] at h1
    exact ⟨⟨a1, a2, a3, a4, a5, a6, a7, a8, align_mem h1, a10, a11, a12, a13, a14⟩, rfl, rfl, rfl⟩
  | textType v =>
    obtain ⟨h1, rfl⟩ := guardSet_ok h
    simp only [inRange_iff] at h1
    exact ⟨⟨a1, a2, a3, a4, a5, a6, a7, a8, a9, by dsimp only; omega, a11, a12, fun _ => by dsimp only; omega,
      fun _ => by dsimp only; omega⟩, rfl, rfl, rfl⟩
  | edgecolor v =>
    obtain ⟨h1, rfl⟩ := guardSet_ok h
    simp only [inRange_iff] at h1
    exact ⟨⟨a1, a2, a3, a4, a5, a6, a7, a8, a9, a10, by dsimp only; omega, a12, a13, a14⟩, rfl, rfl, rfl⟩
  | facecolor v =>
    obtain ⟨h1, rfl⟩ := guardSet_ok h
    simp only [inRange_iff] at h1
    exact ⟨⟨a1, a2, a3, a4, a5, a6, a7, a8, a9, a10, a11, by dsimp only; omega, a13, a14⟩, rfl, rfl, rfl⟩
  | turbulence v =>
    obtain ⟨rfl, h1, h2⟩ := setTurbulence_ok h
    exact ⟨⟨a1, a2, a3, a4, a5, a6, a7, a8, a9, a10, a11, a12, h1, h2⟩, rfl, rfl, rfl⟩
  | flip => cases h
  | _ =>
    have h := Except.ok.inj h; subst h
    exact ⟨⟨a1, a2, a3, a4, a5, a6, a7, a8, a9, a10, a11, a12, a13, a14⟩, rfl, rfl, rfl⟩

/-! ## Symbols -/

theorem mkSymbol_ok {ty : Int} {lon lat : F32} {code c w : Int} {sz : F32} {ox oy : Int} {s : VgSymbol}
    (h : mkSymbol ty lon lat code c w sz ox oy = .ok s) : Spec.SymbolOk ty s ∧ s.lon = lon ∧ s.lat = lat := by
  unfold mkSymbol at h
  obtain ⟨h1, e1, h⟩ := bind_inv h
  obtain ⟨h2, e2, h⟩ := bind_inv h
  have h := (Except.ok.inj h).symm
  subst h
  have o1 := head_set_ok e1 (head_default_ok _ rfl rfl rfl rfl rfl rfl rfl rfl rfl)
  have o2 := head_set_ok e2 o1
  exact ⟨⟨⟨o2.delete, o2.version, o2.closed, o2.filled, o2.smooth, o2.groupType, o2.groupNumber, o2.majorColor,
    o2.minorColor⟩, rfl, rfl, rfl, rfl, rfl⟩, rfl, rfl⟩

theorem symbol_set_ok {ty hi : Int} {y y' : VgSymbol} {s : VgSet} (h : y.set hi s = .ok y') (hy : Spec.SymbolOk ty y) :
    Spec.SymbolOk ty y' ∧ y'.lon = y.lon ∧ y'.lat = y.lat := by
  obtain ⟨a1, a2, a3, a4, a5, a6⟩ := hy
  cases s with
  | head s =>
    obtain ⟨h1, e1, h⟩ := bind_inv h
    have h := Except.ok.inj h; subst h
    have := head_set_same e1
    exact ⟨⟨head_set_ok e1 a1, this.1.trans a2, this.2.1.trans a3, this.2.2.1.trans a4, a5, a6⟩, rfl, rfl⟩
  | width v => obtain ⟨h1, rfl⟩ := guardSet_ok h; exact ⟨⟨a1, a2, a3, a4, a5, a6⟩, rfl, rfl⟩
  | size v => obtain ⟨h1, rfl⟩ := guardSet_ok h; exact ⟨⟨a1, a2, a3, a4, a5, a6⟩, rfl, rfl⟩
  | symbolCode v => obtain ⟨h1, rfl⟩ := guardSet_ok h; exact ⟨⟨a1, a2, a3, a4, a5, a6⟩, rfl, rfl⟩
  | flip => cases h
  | _ => have h := Except.ok.inj h; subst h; exact ⟨⟨a1, a2, a3, a4, a5, a6⟩, rfl, rfl⟩

/-! ## All elements -/

theorem map_ok {α β : Type} {x : Except PyErr α} {f : α → β} {b : β} (h : x.map f = .ok b) : ∃ a, x = .ok a ∧ b = f a := by
  cases x with
  | error e => cases h
  | ok a => exact ⟨a, rfl, (Except.ok.inj h).symm⟩

theorem make_ok {n : VgNew} {e : VgElem} (h : VgElem.make n = .ok e) : Spec.ElemOk e := by
  cases n <;> obtain ⟨a, h1, rfl⟩ := map_ok h
  · exact (mkLine_ok h1).1
  · exact (mkFront_ok h1).1
  · exact (mkSpecialLine_ok h1).1
  · exact (mkSpecialText_ok h1).1
  · exact (mkSymbol_ok h1).1
  · exact (mkSymbol_ok h1).1

theorem fileHeader_ok : Spec.ElemOk mkFileHeader :=
  ⟨head_default_ok _ rfl rfl rfl rfl rfl rfl rfl rfl rfl, rfl, rfl, rfl, rfl, rfl⟩

theorem set_ok {e e' : VgElem} {s : VgSet} (h : e.set s = .ok e') (he : Spec.ElemOk e) : Spec.ElemOk e' := by
  cases e with
  | fileHeader hd v n =>
    cases s with
    | head s =>
      obtain ⟨h1, e1, h⟩ := bind_inv h
      have h := Except.ok.inj h; subst h
      have := head_set_same e1
      exact ⟨head_set_ok e1 he.1, this.1.trans he.2.1, this.2.1.trans he.2.2.1, this.2.2.1.trans he.2.2.2.1,
        he.2.2.2.2.1, he.2.2.2.2.2⟩
    | flip => cases h
    | _ => have h := Except.ok.inj h; subst h; exact he
  | line l => obtain ⟨a, h1, rfl⟩ := map_ok h; exact (line_set_ok h1 he).1
  | front f => obtain ⟨a, h1, rfl⟩ := map_ok h; exact (front_set_ok h1 he).1
  | specialLine l => obtain ⟨a, h1, rfl⟩ := map_ok h; exact (specialLine_set_ok h1 he).1
  | specialText t => obtain ⟨a, h1, rfl⟩ := map_ok h; exact (specialText_set_ok h1 he).1
  | specialSymbol y => obtain ⟨a, h1, rfl⟩ := map_ok h; exact (symbol_set_ok h1 he).1
  | marker y => obtain ⟨a, h1, rfl⟩ := map_ok h; exact (symbol_set_ok h1 he).1

theorem run_ok (ss : List VgSet) (e : VgElem) (he : Spec.ElemOk e) : Spec.ElemOk (e.run ss) := by
  induction ss generalizing e with
  | nil => exact he
  | cons s ss ih =>
    have : e.run (s :: ss) = (e.step s).1.run ss := rfl
    rw [this]
    apply ih
    unfold VgElem.step
    split
    · rename_i e' h; exact set_ok h he
    · exact he

end Gempak
