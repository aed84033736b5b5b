import Verif.Proof.VgfElem
import Verif.Proof.Stream
import Mathlib.Algebra.BigOperators.Group.List.Basic

/-!
# Bytes of encoded vector graphic elements
-/

namespace Gempak

/-- Formats of the element header. -/
def headFmts : List Fmt := [.u8, .u8, .u8, .i8, .u8, .u8, .u8, .u8, .i32, .i32, .i32, .i32, .f32, .f32, .f32, .f32]

/-- Values of the element header. -/
def headVals (h : VgHead) : List Val := [.int h.delete, .int h.vgType, .int h.vgClass, .int h.filled, .int h.closed,
  .int h.smooth, .int h.version, .int h.groupType, .int h.groupNumber, .int h.majorColor, .int h.minorColor,
  .int h.recordSize, .flt h.minLat, .flt h.minLon, .flt h.maxLat, .flt h.maxLon]

theorem headPack_eq (h : VgHead) : h.pack = packFmts .big headFmts (headVals h) := rfl

/-- Formats and values of a line. -/
def lineFmts : List Fmt := [.i32, .i32, .i32, .i32, .i32]
def lineVals (l : VgLine) : List Val := [.int l.base.numberPoints, .int l.lineType, .int l.lineTypeHardware,
  .int l.base.width, .int l.lineWidthHardware]

/-- Formats and values of a front. -/
def frontFmts : List Fmt := [.i32, .i32, .i32, .i32, .i32, .i32, .str 4]
def frontVals (f : VgFront) : List Val := [.int f.numberPoints, .int f.frontCode, .int f.pipSize, .int f.pipStroke,
  .int f.pipDirection, .int f.width, .str f.label]

/-- Formats and values of a special line. -/
def specialLineFmts : List Fmt := [.i32, .i32, .i32, .i32, .f32, .i32]
def specialLineVals (l : VgSpecialLine) : List Val := [.int l.base.numberPoints, .int l.lineType, .int l.stroke,
  .int l.direction, .flt l.size, .int l.base.width]

/-- Formats and values of a special text. -/
def specialTextFmts : List Fmt :=
  [.f32, .f32, .i32, .i32, .i32, .i32, .i32, .i32, .i32, .i32, .i32, .f32, .f32, .i32, .i32]
def specialTextVals (t : VgSpecialText) (ts : F32) : List Val := [.flt t.rotation, .flt ts, .int t.textType,
  .int t.turbulenceSymbol, .int t.font, .int t.textFlag, .int t.width, .int t.textColor, .int t.edgecolor,
  .int t.facecolor, .int t.align, .flt t.lat, .flt t.lon, .int t.offsetX, .int t.offsetY]

/-- Formats and values of a symbol. -/
def symbolFmts : List Fmt := [.i32, .i32, .f32, .i32, .f32, .f32, .f32, .i32, .i32]
def symbolVals (s : VgSymbol) (code : F32) : List Val := [.int s.numberSymbols, .int s.width, .flt s.size,
  .int s.symbolType, .flt code, .flt s.lat, .flt s.lon, .int s.offsetX, .int s.offsetY]

/-- The bytes of an element in parts: header, structure, tail. -/
inductive Encoded : VgElem → Bytes → Bytes → Bytes → Prop
  | fileHeader {h v n b1 b2} : packFmts .big headFmts (headVals h) = .ok b1 →
      packFmts .big [.str 128, .str 256] [.str v, .str n] = .ok b2 → Encoded (.fileHeader h v n) b1 b2 []
  | line {l b1 b2 b3} : packFmts .big headFmts (headVals l.base.head) = .ok b1 →
      packFmts .big lineFmts (lineVals l) = .ok b2 → packPoints l.base.numberPoints l.base.lat l.base.lon = .ok b3 →
      Encoded (.line l) b1 b2 b3
  | front {f b1 b2 b3} : packFmts .big headFmts (headVals f.head) = .ok b1 →
      packFmts .big frontFmts (frontVals f) = .ok b2 → packPoints f.numberPoints f.lat f.lon = .ok b3 →
      Encoded (.front f) b1 b2 b3
  | specialLine {l b1 b2 b3} : packFmts .big headFmts (headVals l.base.head) = .ok b1 →
      packFmts .big specialLineFmts (specialLineVals l) = .ok b2 →
      packPoints l.base.numberPoints l.base.lat l.base.lon = .ok b3 → Encoded (.specialLine l) b1 b2 b3
  | specialText {t ts b1 b2 b3} : packFmts .big headFmts (headVals t.head) = .ok b1 → pointsToSize t.size = .ok ts →
      packFmts .big specialTextFmts (specialTextVals t ts) = .ok b2 →
      packFmts .big [.str t.text.length] [.str (utf8 t.text)] = .ok b3 → Encoded (.specialText t) b1 b2 b3
  | specialSymbol {s code b1 b2} : packFmts .big headFmts (headVals s.head) = .ok b1 →
      ratToF32 s.symbolCode = .ok code → packFmts .big symbolFmts (symbolVals s code) = .ok b2 →
      Encoded (.specialSymbol s) b1 b2 []
  | marker {s code b1 b2} : packFmts .big headFmts (headVals s.head) = .ok b1 →
      ratToF32 s.symbolCode = .ok code → packFmts .big symbolFmts (symbolVals s code) = .ok b2 →
      Encoded (.marker s) b1 b2 []

theorem encode_inv {e : VgElem} {b : Bytes} (h : e.encode = .ok b) :
    ∃ b1 b2 b3, b = b1 ++ b2 ++ b3 ∧ Encoded e b1 b2 b3 := by
  cases e with
  | fileHeader hd v n =>
    obtain ⟨b1, h1, h⟩ := bind_inv h
    obtain ⟨b2, h2, h⟩ := bind_inv h
    have h := Except.ok.inj h; subst h
    exact ⟨b1, b2, [], by simp, .fileHeader h1 h2⟩
  | line l =>
    obtain ⟨b1, h1, h⟩ := bind_inv h
    obtain ⟨b2, h2, h⟩ := bind_inv h
    obtain ⟨b3, h3, h⟩ := bind_inv h
    have h := Except.ok.inj h; subst h
    exact ⟨b1, b2, b3, rfl, .line h1 h2 h3⟩
  | front f =>
    obtain ⟨b1, h1, h⟩ := bind_inv h
    obtain ⟨b2, h2, h⟩ := bind_inv h
    obtain ⟨b3, h3, h⟩ := bind_inv h
    have h := Except.ok.inj h; subst h
    exact ⟨b1, b2, b3, rfl, .front h1 h2 h3⟩
  | specialLine l =>
    obtain ⟨b1, h1, h⟩ := bind_inv h
    obtain ⟨b2, h2, h⟩ := bind_inv h
    obtain ⟨b3, h3, h⟩ := bind_inv h
    have h := Except.ok.inj h; subst h
    exact ⟨b1, b2, b3, rfl, .specialLine h1 h2 h3⟩
  | specialText t =>
    obtain ⟨b1, h1, h⟩ := bind_inv h
    obtain ⟨ts, ht, h⟩ := bind_inv h
    obtain ⟨b2, h2, h⟩ := bind_inv h
    obtain ⟨b3, h3, h⟩ := bind_inv h
    have h := Except.ok.inj h; subst h
    exact ⟨b1, b2, b3, rfl, .specialText h1 ht h2 h3⟩
  | specialSymbol s =>
    obtain ⟨b1, h1, h⟩ := bind_inv h
    obtain ⟨c, hc, h⟩ := bind_inv h
    obtain ⟨b2, h2, h⟩ := bind_inv h
    have h := Except.ok.inj h; subst h
    exact ⟨b1, b2, [], by simp, .specialSymbol h1 hc h2⟩
  | marker s =>
    obtain ⟨b1, h1, h⟩ := bind_inv h
    obtain ⟨c, hc, h⟩ := bind_inv h
    obtain ⟨b2, h2, h⟩ := bind_inv h
    have h := Except.ok.inj h; subst h
    exact ⟨b1, b2, [], by simp, .marker h1 hc h2⟩

theorem packPoints_length {n : Int} {lat lon : List F32} {b : Bytes} (h : packPoints n lat lon = .ok b) :
    b.length = 4 * (n * 2).toNat := by
  have := packFmts_length h
  rw [this]
  simp only [fmtSize, List.map_replicate, Fmt.size, List.sum_replicate]
  rw [Nat.nsmul_eq_mul]
  omega

/-- The size of what an element in range encodes to. -/
theorem encode_length {e : VgElem} {b : Bytes} (he : Spec.ElemOk e) (h : e.encode = .ok b) :
    (b.length : Int) = e.head.recordSize := by
  obtain ⟨b1, b2, b3, rfl, hc⟩ := encode_inv h
  cases hc with
  | fileHeader h1 h2 =>
    have l1 : _ = 40 := packFmts_length h1
    have l2 : _ = 384 := packFmts_length h2
    have h4 := he.2.2.2.1
    simp only [VgElem.head, List.length_append, List.length_nil]
    omega
  | line h1 h2 h3 =>
    have l1 : _ = 40 := packFmts_length h1
    have l2 : _ = 20 := packFmts_length h2
    have l3 := packPoints_length h3
    have h4 := he.recordSize
    have h5 := he.points.few
    simp only [VgElem.head, List.length_append]
    omega
  | front h1 h2 h3 =>
    have l1 : _ = 40 := packFmts_length h1
    have l2 : _ = 28 := packFmts_length h2
    have l3 := packPoints_length h3
    have h4 := he.recordSize
    have h5 := he.points.few
    simp only [VgElem.head, List.length_append]
    omega
  | specialLine h1 h2 h3 =>
    have l1 : _ = 40 := packFmts_length h1
    have l2 : _ = 24 := packFmts_length h2
    have l3 := packPoints_length h3
    have h4 := he.recordSize
    have h5 := he.points.few
    simp only [VgElem.head, List.length_append]
    omega
  | @specialText t ts _ _ _ h1 ht h2 h3 =>
    have l1 : _ = 40 := packFmts_length h1
    have l2 : _ = 60 := packFmts_length h2
    have l3 : _ = t.text.length := packFmts_length h3
    have h4 := he.recordSize
    simp only [VgElem.head, List.length_append]
    omega
  | specialSymbol h1 ht h2 =>
    have l1 : _ = 40 := packFmts_length h1
    have l2 : _ = 36 := packFmts_length h2
    have h4 := he.recordSize
    simp only [VgElem.head, List.length_append, List.length_nil]
    omega
  | marker h1 ht h2 =>
    have l1 : _ = 40 := packFmts_length h1
    have l2 : _ = 36 := packFmts_length h2
    have h4 := he.recordSize
    simp only [VgElem.head, List.length_append, List.length_nil]
    omega

/-! ## When encoding succeeds -/

theorem head_packs {h : VgHead} (hh : Spec.HeadOk h) (hc : 0 ≤ h.vgClass ∧ h.vgClass ≤ 5) (ht : 0 ≤ h.vgType ∧ h.vgType ≤ 22)
    (hr : 0 ≤ h.recordSize ∧ h.recordSize ≤ 5000) (hg : h.groupType ≤ 255) (hn : h.groupNumber < 2 ^ 31) :
    ∃ b, h.pack = .ok b := by
  obtain ⟨c1, c2, c3, c4, c5, c6, c7, c8, c9⟩ := hh
  apply (packFmts_ok_iff .big headFmts _).2
  show List.Forall₂ Fits headFmts (headVals h)
  unfold headFmts headVals
  repeat' first | exact List.Forall₂.nil | refine List.Forall₂.cons ?_ ?_
  all_goals simp only [Fits, inI32]
  all_goals omega

theorem points_pack {lon lat : List F32} {n : Int} (h : Spec.PointsOk lon lat n) : ∃ b, packPoints n lat lon = .ok b := by
  obtain ⟨p1, p2, p3, p4⟩ := h
  apply (packFmts_ok_iff .big _ _).2
  have : (n * 2).toNat = (lat ++ lon).length := by simp; omega
  rw [this]
  generalize lat ++ lon = xs
  induction xs with
  | nil => exact List.Forall₂.nil
  | cons x xs ih => exact List.Forall₂.cons trivial ih

end Gempak
