import Verif.Model.VgfEnc

/-!
# What holds of vector graphic elements at any time (C53, C56 – C58)

Independent of the constructors and setters: plain ranges for the attributes of an element object.
-/

namespace Gempak.Spec

/-- Header attributes of every element. -/
structure HeadOk (h : VgHead) : Prop where
  delete : h.delete = 0
  version : h.version = 0
  closed : 0 ≤ h.closed ∧ h.closed ≤ 1
  filled : 0 ≤ h.filled ∧ h.filled ≤ 8
  smooth : 0 ≤ h.smooth ∧ h.smooth ≤ 2
  groupType : 0 ≤ h.groupType
  groupNumber : 0 ≤ h.groupNumber
  majorColor : 0 ≤ h.majorColor ∧ h.majorColor ≤ 32
  minorColor : 0 ≤ h.minorColor ∧ h.minorColor ≤ 32

/-- Coordinates of a line or front: as many longitudes as latitudes as the stored number, 2 to 500. -/
structure PointsOk (lon lat : List F32) (n : Int) : Prop where
  lon : (lon.length : Int) = n
  lat : (lat.length : Int) = n
  few : 2 ≤ n
  many : n ≤ 500

/-- A line. -/
structure LineOk (l : VgLine) : Prop where
  head : HeadOk l.base.head
  vgClass : l.base.head.vgClass = 3
  vgType : l.base.head.vgType = 1
  recordSize : l.base.head.recordSize = 60 + 8 * l.base.numberPoints
  points : PointsOk l.base.lon l.base.lat l.base.numberPoints
  width : 1 ≤ l.base.width ∧ l.base.width ≤ 10
  lineType : 0 ≤ l.lineType ∧ l.lineType ≤ 99
  lineTypeHardware : l.lineTypeHardware = 0
  lineWidthHardware : l.lineWidthHardware = 0

/-- A front: its code is made of three digits, the middle one is the width and the intensity. -/
structure FrontOk (f : VgFront) : Prop where
  head : HeadOk f.head
  vgClass : f.head.vgClass = 1
  vgType : f.head.vgType = 2
  recordSize : f.head.recordSize = 68 + 8 * f.numberPoints
  points : PointsOk f.lon f.lat f.numberPoints
  label : f.label = [83, 80, 67]
  code : f.frontCode = 100 * f.frontType + 10 * f.frontIntensity + f.frontCharacter
  frontType : 0 ≤ f.frontType ∧ f.frontType ≤ 9
  frontIntensity : 0 ≤ f.frontIntensity ∧ f.frontIntensity ≤ 9
  frontCharacter : 0 ≤ f.frontCharacter ∧ f.frontCharacter ≤ 9
  width : f.width = f.frontIntensity
  pipSize : 40 ≤ f.pipSize ∧ f.pipSize ≤ 500
  pipStroke : 1 ≤ f.pipStroke
  pipDirection : f.pipDirection = 1 ∨ f.pipDirection = -1

/-- A special line. -/
structure SpecialLineOk (l : VgSpecialLine) : Prop where
  head : HeadOk l.base.head
  vgClass : l.base.head.vgClass = 3
  vgType : l.base.head.vgType = 20
  recordSize : l.base.head.recordSize = 64 + 8 * l.base.numberPoints
  points : PointsOk l.base.lon l.base.lat l.base.numberPoints
  width : 1 ≤ l.base.width ∧ l.base.width ≤ 10
  lineType : 1 ≤ l.lineType ∧ l.lineType ≤ 26
  stroke : l.stroke = 1 ∨ 25 ≤ l.stroke ∧ l.stroke ≤ 75
  direction : l.direction = 1 ∨ l.direction = -1
  size : f32Lt l.size 0x3DCCCCCD#32 = false ∧ f32Lt 0x41200000#32 l.size = false

/-- A special text: the text ends with its only guaranteed NUL. -/
structure SpecialTextOk (t : VgSpecialText) : Prop where
  head : HeadOk t.head
  vgClass : t.head.vgClass = 5
  vgType : t.head.vgType = 21
  recordSize : t.head.recordSize = 100 + t.text.length
  text : ∃ s, t.text = s ++ [Char.ofNat 0] ∧ s.length ≤ 254
  size : t.size ∈ [10, 12, 14, 18, 24, 34]
  textColor : 0 ≤ t.textColor ∧ t.textColor ≤ 32
  textFlag : t.textFlag = 1 ∨ t.textFlag = 2
  align : -1 ≤ t.align ∧ t.align ≤ 1
  textType : 0 ≤ t.textType ∧ t.textType ≤ 16
  edgecolor : 0 ≤ t.edgecolor ∧ t.edgecolor ≤ 32
  facecolor : 0 ≤ t.facecolor ∧ t.facecolor ≤ 32
  turbulence79 : t.textType = 7 ∨ t.textType = 9 → 0 ≤ t.turbulenceSymbol ∧ t.turbulenceSymbol ≤ 8
  turbulence12 : t.textType = 12 → 0 ≤ t.turbulenceSymbol ∧ t.turbulenceSymbol ≤ 10

/-- A symbol or marker. -/
structure SymbolOk (vgType : Int) (s : VgSymbol) : Prop where
  head : HeadOk s.head
  vgClass : s.head.vgClass = 4
  vgType : s.head.vgType = vgType
  recordSize : s.head.recordSize = 76
  numberSymbols : s.numberSymbols = 1
  symbolType : s.symbolType = 0

/-- Any element. -/
def ElemOk : VgElem → Prop
  | .fileHeader h v n => HeadOk h ∧ h.vgClass = 0 ∧ h.vgType = 22 ∧ h.recordSize = 424 ∧
      v = utf8 (txt "Version 7.19.0") ∧ n = utf8 (txt "NAWIPS Vector Graphic Format ")
  | .line l => LineOk l
  | .front f => FrontOk f
  | .specialLine l => SpecialLineOk l
  | .specialText t => SpecialTextOk t
  | .specialSymbol s => SymbolOk 15 s
  | .marker s => SymbolOk 19 s

end Gempak.Spec
