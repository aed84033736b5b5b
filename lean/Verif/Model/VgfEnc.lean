import Mathlib.Data.Int.Log
import Verif.Model.F32
import Verif.Model.Text

/-!
# Vector graphic elements: construction, attribute setters, encoding

Renders /repo/src/gempakio/encode/vgf.py:268-1702.  Simplifications:
* integer attributes are integers (a Python float such as `2.0` passes `in range(..)` and fails later in `struct`);
* coordinates, sizes and rotations are given in single precision (NumPy `astype('float32')` and the `struct` format `f`
  round doubles to single precision; both are monotone, so minima and maxima agree);
* assigning an attribute that a class does not define creates an unrelated Python attribute: no effect here.
-/

namespace Gempak

/-! ## Single precision comparisons and conversions -/

/-- Is the pattern not-a-number? -/
def f32Nan (p : F32) : Bool := p.toNat % 2 ^ 31 > 0x7F800000

/-- Position of a pattern in the order of numbers (both zeros at 0). -/
def f32Key (p : F32) : Int := if p.toNat < 2 ^ 31 then (p.toNat : Int) else -((p.toNat - 2 ^ 31 : Nat) : Int)

/-- `a < b` for floats: false when either is not-a-number. -/
def f32Lt (a b : F32) : Bool := !f32Nan a && !f32Nan b && decide (f32Key a < f32Key b)

/-- Python `min(xs)` on a list of floats (first smallest; comparisons with not-a-number are false). -/
def pyMin : List F32 → F32
  | [] => 0
  | x :: xs => xs.foldl (fun m y => if f32Lt y m then y else m) x

/-- Python `max(xs)`. -/
def pyMax : List F32 → F32
  | [] => 0
  | x :: xs => xs.foldl (fun m y => if f32Lt m y then y else m) x

/-- Round half to even of a rational. -/
def roundEven (q : ℚ) : Int :=
  let f := ⌊q⌋
  if q - f < 1 / 2 then f else if 1 / 2 < q - f then f + 1 else if f % 2 = 0 then f else f + 1

/-- Magnitude pattern of a non-negative rational, rounded to nearest even: the significand `m` times `2 ^ e` has pattern
`(e + 149) * 2 ^ 23 + m` (the carry of a rounded-up significand moves into the exponent). -/
def magF32 (q : ℚ) : Nat :=
  let e : Int := max (Int.log 2 q - 23) (-149)
  ((e + 149).toNat * 2 ^ 23 + (roundEven (q / 2 ^ e)).toNat)

/-- `struct.pack('>f', x)` for an exact value: `OverflowError` when it rounds beyond the largest finite number. -/
def ratToF32 (q : ℚ) : Except PyErr F32 :=
  if q = 0 then .ok 0
  else
    let m := magF32 |q|
    if 0x7F800000 ≤ m then .error .overflowError
    else .ok (BitVec.ofNat 32 (if q < 0 then 2 ^ 31 + m else m))

/-! ## Element header -/

/-- `MAX_POINTS` (/repo/src/gempakio/common.py:39). -/
def maxPoints : Nat := 500

/-- A field without converter. -/
def fld (n : String) (f : Fmt) : FieldInfo Val := ⟨some n, some f, none⟩

/-- `Element.element_header_struct` (encode/vgf.py:272-293). -/
def elementHeaderStruct : NamedStruct Val where
  info := [fld "delete" .u8, fld "vg_type" .u8, fld "vg_class" .u8, fld "filled" .i8, fld "closed" .u8,
    fld "smooth" .u8, fld "version" .u8, fld "group_type" .u8, fld "group_number" .i32, fld "major_color" .i32,
    fld "minor_color" .i32, fld "record_size" .i32, fld "min_lat" .f32, fld "min_lon" .f32, fld "max_lat" .f32,
    fld "max_lon" .f32]
  order := .big
  inj := id

/-- Header attributes of an element (encode/vgf.py:295-311). -/
structure VgHead where
  delete : Int := 0
  vgType : Int := 0
  vgClass : Int := 0
  filled : Int := 0
  closed : Int := 0
  smooth : Int := 0
  version : Int := 0
  groupType : Int := 0
  groupNumber : Int := 0
  majorColor : Int := 0
  minorColor : Int := 0
  recordSize : Int := 0
  minLat : F32 := 0
  minLon : F32 := 0
  maxLat : F32 := 0
  maxLon : F32 := 0
  deriving DecidableEq, Repr

/-- `raise ValueError` unless the test holds, else the new state. -/
def guardSet {α : Type} (ok : Bool) (a : α) : Except PyErr α := if ok then .ok a else .error .valueError

/-- `v in range(a, b)`. -/
def inRange (v a b : Int) : Bool := decide (a ≤ v ∧ v < b)

/-- The setters of `Element` (encode/vgf.py:329-430). -/
inductive HeadSet where
  | closed (v : Int) | filled (v : Int) | smooth (v : Int) | groupType (v : Int) | groupNumber (v : Int)
  | majorColor (v : Int) | minorColor (v : Int)
  deriving DecidableEq, Repr

/-- One setter of `Element`: `closed` 333-338, `filled` 365-370, `smooth` 377-382, `group_type` 389-394,
`group_number` 401-406, `major_color` 413-418, `minor_color` 425-430. -/
def VgHead.set (h : VgHead) : HeadSet → Except PyErr VgHead
  | .closed v => guardSet (v == 0 || v == 1) { h with closed := v }
  | .filled v => guardSet (inRange v 0 9) { h with filled := v }
  | .smooth v => guardSet (inRange v 0 3) { h with smooth := v }
  | .groupType v => guardSet (decide (¬ v < 0)) { h with groupType := v }
  | .groupNumber v => guardSet (decide (¬ v < 0)) { h with groupNumber := v }
  | .majorColor v => guardSet (inRange v 0 33) { h with majorColor := v }
  | .minorColor v => guardSet (inRange v 0 33) { h with minorColor := v }

/-- `_make_element_header` (encode/vgf.py:432-452). -/
def VgHead.pack (h : VgHead) : Except PyErr Bytes :=
  elementHeaderStruct.pack [("delete", .int h.delete), ("vg_type", .int h.vgType), ("vg_class", .int h.vgClass),
    ("filled", .int h.filled), ("closed", .int h.closed), ("smooth", .int h.smooth), ("version", .int h.version),
    ("group_type", .int h.groupType), ("group_number", .int h.groupNumber), ("major_color", .int h.majorColor),
    ("minor_color", .int h.minorColor), ("record_size", .int h.recordSize), ("min_lat", .flt h.minLat),
    ("min_lon", .flt h.minLon), ("max_lat", .flt h.maxLat), ("max_lon", .flt h.maxLon)]

/-- Points of a line as packed: `>{2 * n}f` with latitudes, then longitudes (encode/vgf.py:762, 791). -/
def packPoints (n : Int) (lat lon : List F32) : Except PyErr Bytes :=
  packFmts .big (List.replicate (n * 2).toNat .f32) ((lat ++ lon).map .flt)

/-! ## Lines -/

/-- `LineBase` (encode/vgf.py:484-522). -/
structure VgLineBase where
  head : VgHead
  lon : List F32
  lat : List F32
  numberPoints : Int
  width : Int
  deriving DecidableEq, Repr

/-- `LineBase.width` setter (encode/vgf.py:517-522). -/
def VgLineBase.setWidth (b : VgLineBase) (v : Int) : Except PyErr VgLineBase :=
  guardSet (decide (¬ (v < 1 ∨ v > 10))) { b with width := v }

/-- Checks on the coordinate arrays (encode/vgf.py:489-496, 901-908). -/
def checkPoints (lon lat : List F32) : Except PyErr Unit :=
  if lon.length ≠ lat.length then .error .valueError
  else if lon.length > maxPoints then .error .valueError
  else if lon.length < 2 then .error .valueError
  else .ok ()

/-- `LineBase.__init__` (encode/vgf.py:487-511). -/
def mkLineBase (lon lat : List F32) (color width closed filled smooth : Int) : Except PyErr VgLineBase := do
  checkPoints lon lat
  let h : VgHead := { minLon := pyMin lon, minLat := pyMin lat, maxLon := pyMax lon, maxLat := pyMax lat }
  let h ← h.set (.majorColor color)
  let h ← h.set (.minorColor color)
  let b ← VgLineBase.setWidth ⟨h, lon, lat, lon.length, 0⟩ width
  let h ← b.head.set (.closed closed)
  let h ← h.set (.filled filled)
  let h ← h.set (.smooth smooth)
  .ok { b with head := h }

/-- `Line` (encode/vgf.py:679-793). -/
structure VgLine where
  base : VgLineBase
  lineType : Int
  lineTypeHardware : Int
  lineWidthHardware : Int
  deriving DecidableEq, Repr

/-- `Line.line_struct` (encode/vgf.py:682-692). -/
def lineStruct : NamedStruct Val where
  info := [fld "number_points" .i32, fld "line_type" .i32, fld "line_type_hardware" .i32, fld "width" .i32,
    fld "line_width_hardware" .i32]
  order := .big
  inj := id

/-- `Line.line_type` setter (encode/vgf.py:772-777). -/
def VgLine.setLineType (l : VgLine) (v : Int) : Except PyErr VgLine :=
  guardSet (decide (¬ (v < 0 ∨ v > 99))) { l with lineType := v }

/-- `Line.__init__` (encode/vgf.py:694-765). -/
def mkLine (lon lat : List F32) (color lineType closed filled smooth width : Int) : Except PyErr VgLine := do
  let b ← mkLineBase lon lat color width closed filled smooth
  let b := { b with head := { b.head with vgClass := 3, vgType := 1 } }
  let l ← VgLine.setLineType ⟨b, 0, 0, 0⟩ lineType
  .ok { l with base := { l.base with head := { l.base.head with
    recordSize := elementHeaderStruct.size + lineStruct.size + 4 * (l.base.numberPoints * 2) } } }

/-- `Line.encode` (encode/vgf.py:779-793). -/
def VgLine.encode (l : VgLine) : Except PyErr Bytes := do
  let header ← l.base.head.pack
  let info ← lineStruct.pack [("number_points", .int l.base.numberPoints), ("line_type", .int l.lineType),
    ("line_type_hardware", .int l.lineTypeHardware), ("width", .int l.base.width),
    ("line_width_hardware", .int l.lineWidthHardware)]
  let pts ← packPoints l.base.numberPoints l.base.lat l.base.lon
  .ok (header ++ info ++ pts)

/-! ## Fronts -/

/-- `Front` (encode/vgf.py:796-1047). -/
structure VgFront where
  head : VgHead
  lon : List F32
  lat : List F32
  numberPoints : Int
  label : Bytes
  frontCode : Int
  frontType : Int
  frontIntensity : Int
  frontCharacter : Int
  width : Int
  pipSize : Int
  pipStroke : Int
  pipDirection : Int
  deriving DecidableEq, Repr

/-- `Front.front_struct` (encode/vgf.py:799-811). -/
def frontStruct : NamedStruct Val where
  info := [fld "number_points" .i32, fld "front_code" .i32, fld "pip_size" .i32, fld "pip_stroke" .i32,
    fld "pip_direction" .i32, fld "width" .i32, fld "label" (.str 4)]
  order := .big
  inj := id

/-- `f'{n:0wd}'`: decimal digits, zero filled on the left to `w` characters, the sign counted and first. -/
def fmtD (w : Nat) (i : Int) : Text :=
  let d := Nat.toDigits 10 i.natAbs
  if i < 0 then '-' :: (List.replicate (w - 1 - d.length) '0' ++ d) else List.replicate (w - d.length) '0' ++ d

/-- `int(c)` of one character (ASCII; other decimal digits do not occur here): `ValueError` if not a digit. -/
def digitVal (c : Char) : Except PyErr Int :=
  if '0' ≤ c ∧ c ≤ '9' then .ok ((c.toNat : Int) - 48) else .error .valueError

/-- `int(code[k])`. -/
def digitAt (code : Text) (k : Nat) : Except PyErr Int :=
  match code[k]? with
  | some c => digitVal c
  | none => .error .indexError

/-- `int(s)` of a string of digits. -/
def digitsVal (s : Text) : Except PyErr Int :=
  if s.isEmpty then .error .valueError
  else s.foldlM (fun (n : Int) c => do .ok (n * 10 + (← digitVal c))) 0

/-- `Front.front_code` setter (encode/vgf.py:976-993). -/
def VgFront.setCode (f : VgFront) (v : Int) : Except PyErr VgFront :=
  if inRange v 0 1000 then do
    let code := fmtD 3 v
    let t ← digitAt code 0
    let i ← digitAt code 1
    let c ← digitAt code 2
    .ok { f with frontCode := v, frontType := t, frontIntensity := i, frontCharacter := c, width := i }
  else .error .valueError

/-- `Front.width` setter (encode/vgf.py:945-965). -/
def VgFront.setWidth (f : VgFront) (v : Int) : Except PyErr VgFront :=
  if inRange v 1 9 then do
    let code := fmtD 3 f.frontCode
    let t ← digitAt code 0
    let c ← digitAt code 2
    let n ← digitsVal (fmtD 0 t ++ fmtD 0 v ++ fmtD 0 c)
    .ok { f with width := v, frontType := t, frontIntensity := v, frontCharacter := c, frontCode := n }
  else .error .valueError

/-- `Front.pip_size` setter (encode/vgf.py:1000-1005). -/
def VgFront.setPipSize (f : VgFront) (v : Int) : Except PyErr VgFront :=
  guardSet (inRange v 40 501) { f with pipSize := v }

/-- `Front.pip_stroke` setter (encode/vgf.py:1012-1017). -/
def VgFront.setPipStroke (f : VgFront) (v : Int) : Except PyErr VgFront :=
  guardSet (decide (¬ v ≤ 0)) { f with pipStroke := v }

/-- `Front.pip_direction` setter (encode/vgf.py:1024-1029). -/
def VgFront.setPipDirection (f : VgFront) (v : Int) : Except PyErr VgFront :=
  guardSet (v == -1 || v == 1) { f with pipDirection := v }

/-- `Front.flip` (encode/vgf.py:967-969). -/
def VgFront.flip (f : VgFront) : VgFront := { f with pipDirection := f.pipDirection * -1 }

/-- `Front.__init__` (encode/vgf.py:813-938). -/
def mkFront (lon lat : List F32) (frontCode majorColor : Int) (minorColor : Option Int)
    (smooth pipSize pipStroke pipDirection : Int) : Except PyErr VgFront := do
  checkPoints lon lat
  let h : VgHead := {
    vgClass := 1, vgType := 2, minLon := pyMin lon, minLat := pyMin lat, maxLon := pyMax lon, maxLat := pyMax lat }
  let h ← h.set (.majorColor majorColor)
  let h ← h.set (.minorColor (minorColor.getD majorColor))
  let h ← h.set (.closed 0)
  let h ← h.set (.filled 0)
  let f : VgFront := ⟨h, lon, lat, lon.length, [83, 80, 67], 0, 0, 0, 0, 0, 0, 0, 0⟩
  let f ← f.setCode frontCode
  let f ← f.setPipSize pipSize
  let f ← f.setPipStroke pipStroke
  let f ← f.setPipDirection pipDirection
  let h ← f.head.set (.smooth smooth)
  let h := { h with recordSize := elementHeaderStruct.size + frontStruct.size + 4 * (f.numberPoints * 2) }
  let code := fmtD 3 f.frontCode
  let t ← digitAt code 0
  let i ← digitAt code 1
  let c ← digitAt code 2
  .ok { f with head := h, frontType := t, frontIntensity := i, frontCharacter := c, width := i }

/-- `Front.encode` (encode/vgf.py:1031-1047). -/
def VgFront.encode (f : VgFront) : Except PyErr Bytes := do
  let header ← f.head.pack
  let info ← frontStruct.pack [("number_points", .int f.numberPoints), ("front_code", .int f.frontCode),
    ("pip_size", .int f.pipSize), ("pip_stroke", .int f.pipStroke), ("pip_direction", .int f.pipDirection),
    ("width", .int f.width), ("label", .str f.label)]
  let pts ← packPoints f.numberPoints f.lat f.lon
  .ok (header ++ info ++ pts)

/-! ## Special lines -/

/-- `SpecialLine` (encode/vgf.py:1050-1232). -/
structure VgSpecialLine where
  base : VgLineBase
  lineType : Int
  stroke : Int
  direction : Int
  size : F32
  deriving DecidableEq, Repr

/-- `SpecialLine.special_line_struct` (encode/vgf.py:1053-1064). -/
def specialLineStruct : NamedStruct Val where
  info := [fld "number_points" .i32, fld "line_type" .i32, fld "stroke" .i32, fld "direction" .i32, fld "size" .f32,
    fld "width" .i32]
  order := .big
  inj := id

/-- `0.1` in single precision; a single precision number is below the double `0.1` exactly when it is below this one. -/
def f32Tenth : F32 := 0x3DCCCCCD#32

/-- `10.0` in single precision. -/
def f32Ten : F32 := 0x41200000#32

/-- `value < 0.1 or value > 10` (encode/vgf.py:1213, 1528). -/
def badSize (v : F32) : Bool := f32Lt v f32Tenth || f32Lt f32Ten v

/-- `SpecialLine.line_type` setter (encode/vgf.py:1183-1188). -/
def VgSpecialLine.setLineType (l : VgSpecialLine) (v : Int) : Except PyErr VgSpecialLine :=
  guardSet (inRange v 1 27) { l with lineType := v }

/-- `SpecialLine.direction` setter (encode/vgf.py:1195-1199). -/
def VgSpecialLine.setDirection (l : VgSpecialLine) (v : Int) : Except PyErr VgSpecialLine :=
  guardSet (v == 1 || v == -1) { l with direction := v }

/-- `SpecialLine.size` setter (encode/vgf.py:1210-1215). -/
def VgSpecialLine.setSize (l : VgSpecialLine) (v : F32) : Except PyErr VgSpecialLine :=
  guardSet (!badSize v) { l with size := v }

/-- `SpecialLine.flip` (encode/vgf.py:1201-1203). -/
def VgSpecialLine.flip (l : VgSpecialLine) : VgSpecialLine := { l with direction := l.direction * -1 }

/-- `SpecialLine.__init__` (encode/vgf.py:1066-1176). -/
def mkSpecialLine (lon lat : List F32) (color lineType closed filled stroke width smooth : Int) (size : F32)
    (direction : Int) : Except PyErr VgSpecialLine := do
  let b ← mkLineBase lon lat color width closed filled smooth
  let l ← VgSpecialLine.setLineType ⟨b, 0, 0, 0, 0⟩ lineType
  let l ← l.setDirection direction
  let l ← l.setSize size
  let l := { l with base := { l.base with head := { l.base.head with
    vgClass := 3, vgType := 20,
    recordSize := elementHeaderStruct.size + specialLineStruct.size + 4 * (l.base.numberPoints * 2) } } }
  if l.lineType == 24 || l.lineType == 25 then
    if inRange stroke 25 76 then .ok { l with stroke := stroke } else .error .valueError
  else .ok { l with stroke := 1 }

/-- `SpecialLine.encode` (encode/vgf.py:1217-1232). -/
def VgSpecialLine.encode (l : VgSpecialLine) : Except PyErr Bytes := do
  let header ← l.base.head.pack
  let info ← specialLineStruct.pack [("number_points", .int l.base.numberPoints), ("line_type", .int l.lineType),
    ("stroke", .int l.stroke), ("direction", .int l.direction), ("size", .flt l.size), ("width", .int l.base.width)]
  let pts ← packPoints l.base.numberPoints l.base.lat l.base.lon
  .ok (header ++ info ++ pts)

/-! ## Special text -/

/-- `TextBase` and `SpecialText` (encode/vgf.py:525-676, 1235-1468).  `text` includes the final NUL. -/
structure VgSpecialText where
  head : VgHead
  lon : F32
  lat : F32
  size : Int
  textColor : Int
  textFlag : Int
  font : Int
  width : Int
  align : Int
  rotation : F32
  offsetX : Int
  offsetY : Int
  text : Text
  textType : Int
  turbulenceSymbol : Int
  edgecolor : Int
  facecolor : Int
  deriving DecidableEq, Repr

/-- `SpecialText.special_text_struct` (encode/vgf.py:1238-1258). -/
def specialTextStruct : NamedStruct Val where
  info := [fld "rotation" .f32, fld "text_size" .f32, fld "text_type" .i32, fld "turbulence_symbol" .i32,
    fld "font" .i32, fld "text_flag" .i32, fld "width" .i32, fld "text_color" .i32, fld "line_color" .i32,
    fld "fill_color" .i32, fld "align" .i32, fld "lat" .f32, fld "lon" .f32, fld "offset_x" .i32, fld "offset_y" .i32]
  order := .big
  inj := id

/-- Hardware font sizes (encode/vgf.py:593). -/
def fontSizes : List Int := [10, 12, 14, 18, 24, 34]

/-- Hardware font codes (encode/vgf.py:610). -/
def fontCodes : List Int := [1, 2, 3, 11, 12, 13, 21, 22, 23, 31, 32, 33]

namespace VgSpecialText

/-- `TextBase.text_color` setter (encode/vgf.py:578-583). -/
def setTextColor (t : VgSpecialText) (v : Int) : Except PyErr VgSpecialText :=
  guardSet (inRange v 0 33) { t with textColor := v }

/-- `TextBase.size` setter (encode/vgf.py:590-595). -/
def setSize (t : VgSpecialText) (v : Int) : Except PyErr VgSpecialText :=
  guardSet (decide (v ∈ fontSizes)) { t with size := v }

/-- `TextBase.font` setter (encode/vgf.py:607-612). -/
def setFont (t : VgSpecialText) (v : Int) : Except PyErr VgSpecialText :=
  guardSet (!(decide (t.textFlag = 2) && !decide (v ∈ fontCodes))) { t with font := v }

/-- `TextBase.align` setter (encode/vgf.py:629-634). -/
def setAlign (t : VgSpecialText) (v : Int) : Except PyErr VgSpecialText :=
  guardSet (decide (v ∈ [-1, 0, 1])) { t with align := v }

/-- `TextBase.text_flag` setter (encode/vgf.py:671-676). -/
def setTextFlag (t : VgSpecialText) (v : Int) : Except PyErr VgSpecialText :=
  guardSet (v == 1 || v == 2) { t with textFlag := v }

/-- `SpecialText.text_type` setter (encode/vgf.py:1393-1404). -/
def setTextType (t : VgSpecialText) (v : Int) : Except PyErr VgSpecialText :=
  guardSet (inRange v 0 17) { t with textType := v, turbulenceSymbol := 0 }

/-- `SpecialText.edgecolor` setter (encode/vgf.py:1411-1416). -/
def setEdgecolor (t : VgSpecialText) (v : Int) : Except PyErr VgSpecialText :=
  guardSet (inRange v 0 33) { t with edgecolor := v }

/-- `SpecialText.facecolor` setter (encode/vgf.py:1423-1428). -/
def setFacecolor (t : VgSpecialText) (v : Int) : Except PyErr VgSpecialText :=
  guardSet (inRange v 0 33) { t with facecolor := v }

/-- `SpecialText.turbulence_symbol` setter (encode/vgf.py:1435-1442). -/
def setTurbulence (t : VgSpecialText) (v : Int) : Except PyErr VgSpecialText :=
  if (t.textType == 7 || t.textType == 9) && !inRange v 0 9 then .error .valueError
  else if t.textType == 12 && !inRange v 0 11 then .error .valueError
  else .ok { t with turbulenceSymbol := v }

end VgSpecialText

/-- `TextBase.__init__` and `SpecialText.__init__` (encode/vgf.py:528-566, 1260-1386). -/
def mkSpecialText (lon lat : F32) (text : Text) (textColor size textType font align : Int)
    (edgecolor facecolor : Option Int) (rotation : F32) (offsetX offsetY turbulence : Int) :
    Except PyErr VgSpecialText := do
  let h : VgHead := { minLon := lon, minLat := lat, maxLon := lon, maxLat := lat }
  let t : VgSpecialText := ⟨h, lon, lat, 0, 0, 2, 0, 1, 0, 0, 0, 0, [], 0, 0, 0, 0⟩
  let t ← t.setSize size
  let t ← t.setTextColor textColor
  let h ← t.head.set (.majorColor textColor)
  let h ← h.set (.minorColor textColor)
  let t ← VgSpecialText.setTextFlag { t with head := h } 2
  let t ← t.setFont font
  let t ← t.setAlign align
  let t := { t with rotation := rotation, offsetX := offsetX, offsetY := offsetY }
  if text.length + 1 > 255 then .error .valueError
  else do
    let t : VgSpecialText := { t with
      text := text ++ [Char.ofNat 0], head := { t.head with vgClass := 5, vgType := 21 } }
    let t ← t.setTextType textType
    let t ← t.setEdgecolor (edgecolor.getD textColor)
    let t ← t.setFacecolor (facecolor.getD textColor)
    let t ← t.setTurbulence turbulence
    .ok { t with head := { t.head with
      recordSize := elementHeaderStruct.size + specialTextStruct.size + t.text.length } }

/-- `points_to_size` and the conversion to single precision (encode/vgf.py:568-571, 1450). -/
def pointsToSize (points : Int) : Except PyErr F32 := ratToF32 ((points : ℚ) / 14)

/-- `SpecialText.encode` (encode/vgf.py:1444-1468). -/
def VgSpecialText.encode (t : VgSpecialText) : Except PyErr Bytes := do
  let header ← t.head.pack
  let ts ← pointsToSize t.size
  let info ← specialTextStruct.pack [("rotation", .flt t.rotation), ("text_size", .flt ts),
    ("text_type", .int t.textType), ("turbulence_symbol", .int t.turbulenceSymbol), ("font", .int t.font),
    ("text_flag", .int t.textFlag), ("width", .int t.width), ("text_color", .int t.textColor),
    ("line_color", .int t.edgecolor), ("fill_color", .int t.facecolor), ("align", .int t.align), ("lat", .flt t.lat),
    ("lon", .flt t.lon), ("offset_x", .int t.offsetX), ("offset_y", .int t.offsetY)]
  let text ← packFmts .big [.str t.text.length] [.str (utf8 t.text)]
  .ok (header ++ info ++ text)

/-! ## Symbols and markers -/

/-- `SymbolBase` (encode/vgf.py:1471-1583). -/
structure VgSymbol where
  head : VgHead
  numberSymbols : Int
  width : Int
  size : F32
  symbolType : Int
  symbolCode : Int
  lat : F32
  lon : F32
  offsetX : Int
  offsetY : Int
  deriving DecidableEq, Repr

/-- `SymbolBase.symbol_struct` (encode/vgf.py:1474-1488). -/
def symbolStruct : NamedStruct Val where
  info := [fld "number_symbols" .i32, fld "width" .i32, fld "symbol_size" .f32, fld "symbol_type" .i32,
    fld "symbol_code" .f32, fld "lat" .f32, fld "lon" .f32, fld "offset_x" .i32, fld "offset_y" .i32]
  order := .big
  inj := id

/-- `SymbolBase.__init__` with the class, type and record size set by `SpecialSymbol` (type 15) and `Marker` (type 19)
(encode/vgf.py:1490-1506, 1619-1622, 1661-1664).  Width, size and code are stored unchecked. -/
def mkSymbol (vgType : Int) (lon lat : F32) (code color width : Int) (size : F32) (offsetX offsetY : Int) :
    Except PyErr VgSymbol := do
  let h : VgHead := { minLon := lon, minLat := lat, maxLon := lon, maxLat := lat }
  let h ← h.set (.majorColor color)
  let h ← h.set (.minorColor color)
  .ok ⟨{ h with vgClass := 4, vgType := vgType, recordSize := elementHeaderStruct.size + symbolStruct.size },
    1, width, size, 0, code, lat, lon, offsetX, offsetY⟩

/-- `SymbolBase.width` setter (encode/vgf.py:1513-1518). -/
def VgSymbol.setWidth (s : VgSymbol) (v : Int) : Except PyErr VgSymbol :=
  guardSet (decide (¬ (v < 1 ∨ v > 10))) { s with width := v }

/-- `SymbolBase.size` setter (encode/vgf.py:1525-1530). -/
def VgSymbol.setSize (s : VgSymbol) (v : F32) : Except PyErr VgSymbol := guardSet (!badSize v) { s with size := v }

/-- `SymbolBase.symbol_code` setter with the upper limit of the class (encode/vgf.py:1537-1541, 1624-1627, 1666-1669). -/
def VgSymbol.setCode (hi : Int) (s : VgSymbol) (v : Int) : Except PyErr VgSymbol :=
  guardSet (decide (¬ (v < 1 ∨ v > hi))) { s with symbolCode := v }

/-- `SymbolBase.encode` (encode/vgf.py:1567-1583). -/
def VgSymbol.encode (s : VgSymbol) : Except PyErr Bytes := do
  let header ← s.head.pack
  let code ← ratToF32 s.symbolCode
  let info ← symbolStruct.pack [("number_symbols", .int s.numberSymbols), ("width", .int s.width),
    ("symbol_size", .flt s.size), ("symbol_type", .int s.symbolType), ("symbol_code", .flt code), ("lat", .flt s.lat),
    ("lon", .flt s.lon), ("offset_x", .int s.offsetX), ("offset_y", .int s.offsetY)]
  .ok (header ++ info)

/-! ## Elements and files -/

/-- An element object. -/
inductive VgElem where
  | fileHeader (head : VgHead) (version notes : Bytes)
  | line (l : VgLine) | front (f : VgFront) | specialLine (l : VgSpecialLine) | specialText (t : VgSpecialText)
  | specialSymbol (s : VgSymbol) | marker (s : VgSymbol)
  deriving DecidableEq, Repr

/-- `FileHeader.file_header_struct` (encode/vgf.py:465-467). -/
def fileHeaderStruct : NamedStruct Val where
  info := [fld "version" (.str 128), fld "notes" (.str 256)]
  order := .big
  inj := id

/-- `FileHeader.__init__` (encode/vgf.py:469-474). -/
def mkFileHeader : VgElem :=
  .fileHeader { vgType := 22, recordSize := elementHeaderStruct.size + fileHeaderStruct.size }
    (utf8 (txt "Version 7.19.0")) (utf8 (txt "NAWIPS Vector Graphic Format "))

/-- Constructor calls of a user. -/
inductive VgNew where
  | line (lon lat : List F32) (color lineType closed filled smooth width : Int)
  | front (lon lat : List F32) (frontCode majorColor : Int) (minorColor : Option Int)
      (smooth pipSize pipStroke pipDirection : Int)
  | specialLine (lon lat : List F32) (color lineType closed filled stroke width smooth : Int) (size : F32)
      (direction : Int)
  | specialText (lon lat : F32) (text : Text) (textColor size textType font align : Int)
      (edgecolor facecolor : Option Int) (rotation : F32) (offsetX offsetY turbulence : Int)
  | specialSymbol (lon lat : F32) (code color width : Int) (size : F32) (offsetX offsetY : Int)
  | marker (lon lat : F32) (code color width : Int) (size : F32) (offsetX offsetY : Int)
  deriving DecidableEq, Repr

/-- A constructor call. -/
def VgElem.make : VgNew → Except PyErr VgElem
  | .line lon lat color lt cl fi sm w => (mkLine lon lat color lt cl fi sm w).map .line
  | .front lon lat fc mj mn sm ps st pd => (mkFront lon lat fc mj mn sm ps st pd).map .front
  | .specialLine lon lat color lt cl fi st w sm sz d =>
    (mkSpecialLine lon lat color lt cl fi st w sm sz d).map .specialLine
  | .specialText lon lat text tc sz tt fo al ec fc ro ox oy tu =>
    (mkSpecialText lon lat text tc sz tt fo al ec fc ro ox oy tu).map .specialText
  | .specialSymbol lon lat code color w sz ox oy => (mkSymbol 15 lon lat code color w sz ox oy).map .specialSymbol
  | .marker lon lat code color w sz ox oy => (mkSymbol 19 lon lat code color w sz ox oy).map .marker

/-- Attribute assignments and method calls of a user. -/
inductive VgSet where
  | head (s : HeadSet)
  | width (v : Int) | lineType (v : Int)
  | frontCode (v : Int) | pipSize (v : Int) | pipStroke (v : Int) | pipDirection (v : Int)
  | direction (v : Int) | flip
  | size (v : F32) | points (v : Int)
  | textColor (v : Int) | textFlag (v : Int) | font (v : Int) | align (v : Int) | rotation (v : F32)
  | offsetX (v : Int) | offsetY (v : Int) | textType (v : Int) | edgecolor (v : Int) | facecolor (v : Int)
  | turbulence (v : Int) | symbolCode (v : Int)
  deriving DecidableEq, Repr

/-- Setter on a line. -/
def VgLine.set (l : VgLine) : VgSet → Except PyErr VgLine
  | .head s => do .ok { l with base := { l.base with head := ← l.base.head.set s } }
  | .width v => do .ok { l with base := ← l.base.setWidth v }
  | .lineType v => l.setLineType v
  | .flip => .error .attributeError
  | _ => .ok l

/-- Setter on a front. -/
def VgFront.set (f : VgFront) : VgSet → Except PyErr VgFront
  | .head s => do .ok { f with head := ← f.head.set s }
  | .width v => f.setWidth v
  | .frontCode v => f.setCode v
  | .pipSize v => f.setPipSize v
  | .pipStroke v => f.setPipStroke v
  | .pipDirection v => f.setPipDirection v
  | .flip => .ok f.flip
  | _ => .ok f

/-- Setter on a special line. -/
def VgSpecialLine.set (l : VgSpecialLine) : VgSet → Except PyErr VgSpecialLine
  | .head s => do .ok { l with base := { l.base with head := ← l.base.head.set s } }
  | .width v => do .ok { l with base := ← l.base.setWidth v }
  | .lineType v => l.setLineType v
  | .direction v => l.setDirection v
  | .size v => l.setSize v
  | .flip => .ok l.flip
  | _ => .ok l

/-- Setter on a special text; `size` is in points here.  `width`, `rotation` and offsets are unchecked
(encode/vgf.py:619-664). -/
def VgSpecialText.set (t : VgSpecialText) : VgSet → Except PyErr VgSpecialText
  | .head s => do .ok { t with head := ← t.head.set s }
  | .width v => .ok { t with width := v }
  | .points v => t.setSize v
  | .textColor v => t.setTextColor v
  | .textFlag v => t.setTextFlag v
  | .font v => t.setFont v
  | .align v => t.setAlign v
  | .rotation v => .ok { t with rotation := v }
  | .offsetX v => .ok { t with offsetX := v }
  | .offsetY v => .ok { t with offsetY := v }
  | .textType v => t.setTextType v
  | .edgecolor v => t.setEdgecolor v
  | .facecolor v => t.setFacecolor v
  | .turbulence v => t.setTurbulence v
  | .flip => .error .attributeError
  | _ => .ok t

/-- Setter on a symbol; offsets are unchecked (encode/vgf.py:1548-1561). -/
def VgSymbol.set (hi : Int) (s : VgSymbol) : VgSet → Except PyErr VgSymbol
  | .head h => do .ok { s with head := ← s.head.set h }
  | .width v => s.setWidth v
  | .size v => s.setSize v
  | .symbolCode v => s.setCode hi v
  | .offsetX v => .ok { s with offsetX := v }
  | .offsetY v => .ok { s with offsetY := v }
  | .flip => .error .attributeError
  | _ => .ok s

/-- Setter on an element. -/
def VgElem.set : VgElem → VgSet → Except PyErr VgElem
  | .fileHeader h v n, .head s => do .ok (.fileHeader (← h.set s) v n)
  | .fileHeader _ _ _, .flip => .error .attributeError
  | .fileHeader h v n, _ => .ok (.fileHeader h v n)
  | .line l, s => (l.set s).map .line
  | .front f, s => (f.set s).map .front
  | .specialLine l, s => (l.set s).map .specialLine
  | .specialText t, s => (t.set s).map .specialText
  | .specialSymbol y, s => (y.set 41 s).map .specialSymbol
  | .marker y, s => (y.set 24 s).map .marker

/-- One call: the element afterwards and the exception, if any (every check precedes the assignment). -/
def VgElem.step (e : VgElem) (s : VgSet) : VgElem × Option PyErr :=
  match e.set s with
  | .ok e' => (e', none)
  | .error x => (e, some x)

/-- A whole history of calls. -/
def VgElem.run (e : VgElem) (ss : List VgSet) : VgElem := ss.foldl (fun e s => (e.step s).1) e

/-- Header attributes of an element. -/
def VgElem.head : VgElem → VgHead
  | .fileHeader h _ _ => h
  | .line l => l.base.head
  | .front f => f.head
  | .specialLine l => l.base.head
  | .specialText t => t.head
  | .specialSymbol s => s.head
  | .marker s => s.head

/-- `encode` (encode/vgf.py:476-481 for the file header). -/
def VgElem.encode : VgElem → Except PyErr Bytes
  | .fileHeader h v n => do
    let header ← h.pack
    let packed ← fileHeaderStruct.pack [("version", .str v), ("notes", .str n)]
    .ok (header ++ packed)
  | .line l => l.encode
  | .front f => f.encode
  | .specialLine l => l.encode
  | .specialText t => t.encode
  | .specialSymbol s => s.encode
  | .marker s => s.encode

/-- `VGFile`: the list of elements, file header first (encode/vgf.py:1672-1691). -/
def vgFile (es : List VgElem) : List VgElem := mkFileHeader :: es

/-- `VGFile.to_vgf` (encode/vgf.py:1693-1702): the bytes of the file (simplified: when `encode` raises, the file keeps
the elements written before; here there is no result). -/
def toVgf (es : List VgElem) : Except PyErr Bytes := do
  let parts ← (vgFile es).mapM VgElem.encode
  .ok parts.flatten

end Gempak
