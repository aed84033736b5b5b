import Verif.Model.VgfStructs

/-!
# Vector graphic files: decoding

Renders `VectorGraphicFile` of /repo/src/gempakio/decode/vgf.py (decoding: 3260-5322).  The host is little endian
(`prefmt = '>'`, decode/vgf.py:2889-2892).  `ν` is the type of rounded numbers; rounding itself, and the regular expressions
of the tropical cyclone advisory, are parameters (`VgEnv`).  Logging is not modelled.
-/

namespace Gempak

/-- Values of attributes of decoded elements. -/
inductive DVal (ν : Type) where
  | int (i : Int) | num (x : ν) | flt (f : F32) | text (t : Text) | bytes (b : Bytes)
  | arr (xs : List ν) | raw (xs : List F32) | ints (xs : List Int) | texts (ts : List Text)
  | recs (rs : List (List (String × DVal ν)))

/-- A named tuple, or the attributes of an object. -/
abbrev DRec (ν : Type) := List (String × DVal ν)

/-- What the decoder takes from Python and NumPy. -/
structure VgEnv (ν : Type) where
  /-- `round(x, ndigits=n)` of a single precision number. -/
  scalar : Nat → F32 → ν
  /-- One element of `np.around(a, 2)` for a single precision array. -/
  array : F32 → ν
  /-- The attributes read from the text of a tropical cyclone advisory, one list per element
  (decode/vgf.py:4204-4278). -/
  tca : Text → Except PyErr (List (DRec ν))

variable {ν : Type}

/-! ## Strings -/

/-- `b.decode('utf-8', errors='ignore')`: bytes that do not belong to a character are dropped one by one. -/
def utf8Ignore : Bytes → Text
  | [] => []
  | b0 :: rest =>
    if b0.toNat < 0x80 then Char.ofNat b0.toNat :: utf8Ignore rest
    else if b0.toNat < 0xC0 then utf8Ignore rest
    else if b0.toNat < 0xE0 then
      match rest with
      | b1 :: r =>
        match (contBits b1).bind fun c1 => scalar 0x80 ((b0.toNat - 0xC0) * 64 + c1) with
        | some c => c :: utf8Ignore r
        | none => utf8Ignore (b1 :: r)
      | [] => []
    else if b0.toNat < 0xF0 then
      match rest with
      | b1 :: b2 :: r =>
        match (contBits b1).bind fun c1 => (contBits b2).bind fun c2 =>
          scalar 0x800 ((b0.toNat - 0xE0) * 4096 + c1 * 64 + c2) with
        | some c => c :: utf8Ignore r
        | none => utf8Ignore (b1 :: b2 :: r)
      | [b1] => utf8Ignore [b1]
      | [] => []
    else
      match rest with
      | b1 :: b2 :: b3 :: r =>
        match (contBits b1).bind fun c1 => (contBits b2).bind fun c2 => (contBits b3).bind fun c3 =>
          scalar 0x10000 ((b0.toNat - 0xF0) * 262144 + c1 * 4096 + c2 * 64 + c3) with
        | some c => c :: utf8Ignore r
        | none => utf8Ignore (b1 :: b2 :: b3 :: r)
      | [b1, b2] => utf8Ignore [b1, b2]
      | [b1] => utf8Ignore [b1]
      | [] => []
termination_by b => b.length

/-- `s.find(c)`: `-1` when absent. -/
def pyFind (c : Char) (s : Text) : Int :=
  match s.findIdx? (· = c) with
  | some i => i
  | none => -1

/-- `_decode_strip_null` (decode/vgf.py:5286-5308). -/
def stripNull (b : Bytes) : Text :=
  let decoded := utf8Ignore b
  let null := pyFind (Char.ofNat 0) decoded
  strip (pySlice decoded 0 null)

/-- `_swap32` (decode/vgf.py:5310-5322): `int.to_bytes` raises `OverflowError` outside `0 .. 2 ^ 32 - 1`. -/
def swap32 (x : Int) : Except PyErr Int :=
  if 0 ≤ x ∧ x < 4294967296 then .ok (leToNat (natToLE x.toNat 4).reverse) else .error .overflowError

/-- `b.split(b'\x00')[0].decode()`. -/
def cString (b : Bytes) : Except PyErr Text :=
  match utf8Dec (b.takeWhile (· ≠ 0)) with
  | some t => .ok t
  | none => .error .unicodeError

/-- `s.replace('$$', '\n')`. -/
def dollarBreaks : Text → Text
  | '$' :: '$' :: s => '\n' :: dollarBreaks s
  | c :: s => c :: dollarBreaks s
  | [] => []

/-! ## Coordinates -/

/-- A coordinate sequence given to the helpers below: NumPy array, list of floats, anything else. -/
inductive Coords (ν : Type) where
  | array (xs : List ν) | list (xs : List ν) | other
  deriving DecidableEq, Repr

/-- `close_coordinates` (decode/vgf.py:5237-5260).  For lists `x += x[0]` extends by a float: `TypeError`. -/
def closeCoords : Coords ν → Coords ν → Except PyErr (Coords ν × Coords ν)
  | .array (x :: xs), .array (y :: ys) => .ok (.array (x :: xs ++ [x]), .array (y :: ys ++ [y]))
  | .array _, .array _ => .error .indexError
  | .list (_ :: _), .list _ => .error .typeError
  | .list [], .list _ => .error .indexError
  | _, _ => .error .typeError

/-- `flip_coordinates` (decode/vgf.py:5262-5284). -/
def flipCoords : Coords ν → Coords ν → Except PyErr (Coords ν × Coords ν)
  | .array x, .array y => .ok (.array x.reverse, .array y.reverse)
  | .list x, .list y => .ok (.list x.reverse, .list y.reverse)
  | _, _ => .error .typeError

/-! ## Reading -/

/-- Header of a decoded element (decode/vgf.py:601-627). -/
structure DHdr (ν : Type) where
  delete : Int
  vgType : Int
  vgClass : Int
  filled : Int
  closed : Int
  smooth : Int
  version : Int
  groupType : Int
  groupNumber : Int
  majorColor : Int
  minorColor : Int
  recordSize : Int
  minLat : ν
  minLon : ν
  maxLat : ν
  maxLon : ν

/-- A decoded element: the name of its Python class, its header, its own attributes in order of assignment. -/
structure DElem (ν : Type) where
  kind : String
  hdr : DHdr ν
  attrs : DRec ν

/-- A piece of the reader: state is the buffer; an exception ends the decoding. -/
abbrev Rd (α : Type) := StateT IOBuffer (Except PyErr) α

/-- `raise`. -/
def Rd.fail {α : Type} (e : PyErr) : Rd α := fun _ => .error e

/-- A computation that does not touch the buffer. -/
def Rd.pure' {α : Type} (x : Except PyErr α) : Rd α := fun b => x.map (·, b)

/-- Apply a converter. -/
def DConv.run (env : VgEnv ν) : DConv → Val → Except PyErr (DVal ν)
  | .round n, .flt f => .ok (.num (env.scalar n f))
  | .stripNull, .str b => .ok (.text (Gempak.stripNull b))
  | .toInt, .flt f => (f32Int f).map .int
  | .swap32, .int i => (Gempak.swap32 i).map .int
  | _, _ => .error .typeError

/-- A value without converter. -/
def dInj : Val → DVal ν
  | .int i => .int i
  | .flt f => .flt f
  | .str b => .bytes b

/-- An entry of a field list as `NamedStruct` sees it. -/
def DField.info (env : VgEnv ν) : DField → FieldInfo (DVal ν)
  | .plain n f => ⟨some n, some f, none⟩
  | .conv n f c => ⟨some n, some f, some (c.run env)⟩
  | .skip n => ⟨none, some (.pad n), none⟩

/-- `NamedStruct(fields, order)`. -/
def dStruct (env : VgEnv ν) (e : Endian) (fs : List DField) : Except PyErr (NamedStruct (DVal ν)) :=
  NamedStruct.make (fs.map (DField.info env)) e dInj

/-- `self._buffer.read_struct(NamedStruct(fields, order))` (tools.py:114-118). -/
def readRec (env : VgEnv ν) (e : Endian) (fs : List DField) : Rd (DRec ν) := fun b => do
  let s ← dStruct env e fs
  let vs ← s.unpackFrom b.data b.offset
  .ok (s.names.zip vs, b.skip (some s.size))

/-- `self._buffer.read(n)`. -/
def readBytes (n : Int) : Rd Bytes := fun b =>
  let r := b.read (some n)
  .ok (r.2, r.1)

/-- `self._buffer.skip(n)`. -/
def skipBytes (n : Int) : Rd Unit := fun b => .ok ((), b.skip (some n))

/-- `self._buffer.read_array(count, '>f')` or `'>i'` (tools.py:148-152) with `np.frombuffer`: a negative count means all
remaining bytes, which must then be whole items. -/
def readVgWords (count : Int) : Rd (List (BitVec 32)) := fun b =>
  if b.offset < 0 ∨ (b.data.length : Int) < b.offset then .error .valueError
  else
    let rest := b.data.drop b.offset.toNat
    if count < 0 then
      if rest.length % 4 ≠ 0 then .error .valueError
      else .ok ((unpackItems .big (List.replicate (rest.length / 4) .f32) rest).filterMap
          (fun v => match v with | .flt f => some f | _ => none), b.skip (some (rest.length / 4 * 4 : Nat)))
    else if rest.length < 4 * count.toNat then .error .valueError
    else .ok ((unpackItems .big (List.replicate count.toNat .f32) rest).filterMap
        (fun v => match v with | .flt f => some f | _ => none), b.skip (some (4 * count.toNat : Nat)))

/-- Integers of a word array. -/
def wordInts (ws : List (BitVec 32)) : List Int := ws.map fun w => toI32 w.toNat

/-- `_get_latlon` (decode/vgf.py:5184-5207); `none` is the pair `(-9999, -9999)`. -/
def getLatLon (env : VgEnv ν) (points : Int) : Rd (Option (List ν × List ν)) :=
  if points > maxPoints then Rd.fail .valueError
  else if points ≥ 1 then do
    let lat ← readVgWords points
    let lon ← readVgWords points
    pure (some (lat.map env.array, lon.map env.array))
  else pure none

/-- Latitude attribute. -/
def latVal : Option (List ν × List ν) → DVal ν
  | some p => .arr p.1
  | none => .int (-9999)

/-- Longitude attribute. -/
def lonVal : Option (List ν × List ν) → DVal ν
  | some p => .arr p.2
  | none => .int (-9999)

/-- `rec.name`. -/
def DRec.get (r : DRec ν) (n : String) : Except PyErr (DVal ν) :=
  match r.lookup n with
  | some v => .ok v
  | none => .error .attributeError

/-- `rec.name` used as an integer. -/
def DRec.int (r : DRec ν) (n : String) : Except PyErr Int := do
  match ← r.get n with
  | .int i => .ok i
  | _ => .error .typeError

/-- Attributes taken over under their own names. -/
def DRec.pick (r : DRec ν) (ns : List String) : Except PyErr (DRec ν) := ns.mapM fun n => do .ok (n, ← r.get n)

/-- Attribute `a` taken from field `n`. -/
def DRec.pickAs (r : DRec ν) (a n : String) : Except PyErr (DRec ν) := do .ok [(a, ← r.get n)]

/-- `rec.name if hasattr(rec, name) else default`. -/
def DRec.pickOr (r : DRec ν) (ns : List (String × DVal ν)) : DRec ν := ns.map fun x => (x.1, (r.lookup x.1).getD x.2)

/-- Member name of an `IntEnum` starting at `lo`: `ValueError` outside. -/
def enumName (lo : Int) (names : List String) (i : Int) : Except PyErr String :=
  if i < lo then .error .valueError
  else match names[(i - lo).toNat]? with
    | some n => .ok n
    | none => .error .valueError

/-- `LineType` (decode/vgf.py:106-118). -/
def lineTypeNames : List String := ["dotted", "solid", "short_dashed", "medium_dashed", "long_dash_short_dash",
  "long_dash", "long_dash_three_short_dash", "long_dash_dot", "long_dash_three_dot", "extra_long_dash_two_dot"]

/-- `SpecialLineType` (decode/vgf.py:121-149), from 1. -/
def specialLineTypeNames : List String := ["ball_chain", "zigzag", "scallop", "pointed_arrow", "alt_angle_ticks",
  "filled_arrow", "box_circles", "two_x", "filled_circles", "line_fill_circle_line", "tick_marks", "line_x_line",
  "fancy_arrow", "fill_circle_x", "box_x", "line_circle_line", "line_caret_line1", "line_caret_line2", "sine_curve",
  "arrow_dashed", "fill_arrow_dash", "streamline", "double_line", "kink_line1", "kink_line2", "z_line"]

/-- `MarkerType` (decode/vgf.py:152-179). -/
def markerTypeNames : List String := ["none", "plus_sign", "octagon", "triangle", "box", "small_x", "diamond", "up_arrow",
  "x_bar", "z_bar", "y", "box_diagonals", "asterisk", "hourglass", "star", "dot", "large_x", "filled_octagon",
  "filled_triangle", "filled_box", "filled_diamond", "filled_star", "minus_sign", "tropical_storm", "hurricane"]

/-- `ListType` (decode/vgf.py:182-189), from 1. -/
def listTypeNames : List String := ["county", "zone", "wfo", "state", "marine_county"]

/-- `FrontType` (decode/vgf.py:192-204). -/
def frontTypeNames : List String := ["stationary", "stationary_aloft", "warm", "warm_aloft", "cold", "cold_aloft",
  "occluded", "dryline", "intertropical", "convergence"]

/-- `FrontIntensity` (decode/vgf.py:207-219). -/
def frontIntensityNames : List String := ["unspecified", "weak_decreasing", "weak", "weak_increasing",
  "moderate_decreasing", "moderate", "moderate_increasing", "strong_decreasing", "strong", "strong_increasing"]

/-- `FrontCharacter` (decode/vgf.py:222-234). -/
def frontCharacterNames : List String := ["unspecified", "frontal_decreasing", "little_change", "area_increasing",
  "intertropical", "forming_suspected", "quasi_stationary", "with_waves", "diffuse", "position_doubtful"]

/-- `LineElement._set_properties`, `CircleElement._set_properties` (decode/vgf.py:833-837, 1190-1194). -/
def lineProps (lineType : Int) : Except PyErr (DRec ν) := do
  let code := fmtD 2 lineType
  let m ← digitAt code 0
  let s ← enumName 0 lineTypeNames (← digitAt code 1)
  .ok [("line_modifier", .int m), ("line_style", .text (txt s))]

/-- `FrontElement._set_properties` (decode/vgf.py:1069-1074). -/
def frontProps (frontCode : Int) : Except PyErr (DRec ν) := do
  let code := fmtD 3 frontCode
  let t ← enumName 0 frontTypeNames (← digitAt code 0)
  let i ← enumName 0 frontIntensityNames (← digitAt code 1)
  let c ← enumName 0 frontCharacterNames (← digitAt code 2)
  .ok [("front_type", .text (txt t)), ("front_intensity", .text (txt i)), ("front_character", .text (txt c))]

/-- Elements produced by one record, as class name and attributes. -/
abbrev Prod' (ν : Type) := List (String × DRec ν)

/-- `_decode_fronts` (decode/vgf.py:3269-3297). -/
def decodeFronts (env : VgEnv ν) : Rd (Prod' ν) := do
  let front ← readRec env .big frontInfo
  let n ← Rd.pure' (front.int "number_points")
  let ll ← getLatLon env n
  let a ← Rd.pure' (front.pick ["number_points", "front_code", "pip_size", "pip_stroke", "pip_direction", "width", "label"])
  let p ← Rd.pure' (do frontProps (← front.int "front_code"))
  pure [("FrontElement", a ++ [("lat", latVal ll), ("lon", lonVal ll)] ++ p)]

/-- `_decode_symbols` (decode/vgf.py:3299-3327). -/
def decodeSymbols (env : VgEnv ν) : Rd (Prod' ν) := do
  let s ← readRec env .big symbolInfo
  let a ← Rd.pure' (s.pick ["number_symbols", "width"])
  let sz ← Rd.pure' (s.pickAs "size" "symbol_size")
  let c ← Rd.pure' (s.pick ["symbol_type", "symbol_code", "offset_x", "offset_y", "lat", "lon"])
  pure [("SymbolElement", a ++ sz ++ c)]

/-- `_decode_circles` (decode/vgf.py:3329-3354). -/
def decodeCircles (env : VgEnv ν) : Rd (Prod' ν) := do
  let line ← readRec env .big circleInfo
  let n ← Rd.pure' (line.int "number_points")
  let ll ← getLatLon env n
  let a ← Rd.pure' (line.pick ["number_points", "line_type", "line_type_hardware", "width", "line_width_hardware"])
  let p ← Rd.pure' (do lineProps (← line.int "line_type"))
  pure [("CircleElement", a ++ [("lat", latVal ll), ("lon", lonVal ll)] ++ p)]

/-- Close the coordinates of a closed line (decode/vgf.py:3371-3372, 3405-3406).  Arrays of more than two points. -/
def closeIf (c : Bool) (p : List ν × List ν) : List ν × List ν :=
  if c then (p.1 ++ p.1.head?.toList, p.2 ++ p.2.head?.toList) else p

/-- `_decode_lines` (decode/vgf.py:3356-3385). -/
def decodeLines (env : VgEnv ν) (h : DHdr ν) : Rd (Prod' ν) := do
  let line ← readRec env .big lineInfo
  let n ← Rd.pure' (line.int "number_points")
  match ← getLatLon env n with
  | none => pure []
  | some ll =>
    let ll := closeIf (decide (h.closed ≠ 0) && decide (n > 2)) ll
    let a ← Rd.pure' (line.pick ["number_points", "line_type", "line_type_hardware", "width", "line_width_hardware"])
    let p ← Rd.pure' (do lineProps (← line.int "line_type"))
    pure [("LineElement", a ++ [("lat", .arr ll.1), ("lon", .arr ll.2)] ++ p)]

/-- `_decode_special_lines` (decode/vgf.py:3387-3423). -/
def decodeSpecialLines (env : VgEnv ν) (h : DHdr ν) : Rd (Prod' ν) := do
  let line ← readRec env .big specialLineInfo
  let n ← Rd.pure' (line.int "number_points")
  match ← getLatLon env n with
  | none => pure []
  | some ll =>
    let ll := closeIf (decide (h.closed ≠ 0) && decide (n > 2)) ll
    let d ← Rd.pure' (line.int "direction")
    let ll := if d = -1 then (ll.1.reverse, ll.2.reverse) else ll
    let a ← Rd.pure' (line.pick ["number_points", "line_type", "stroke", "direction"])
    let sz ← Rd.pure' (line.pickAs "size" "line_size")
    let w ← Rd.pure' (line.pick ["width"])
    let lt ← Rd.pure' (line.int "line_type")
    let s ← Rd.pure' (enumName 1 specialLineTypeNames lt)
    pure [("SpecialLineElement", a ++ sz ++ w ++ [("lat", .arr ll.1), ("lon", .arr ll.2)] ++
      [("line_style", .text (txt s))])]

/-- Read `n` things (`for _ in range(n)`). -/
def repeatRd {α : Type} (x : Rd α) : Nat → Rd (List α)
  | 0 => pure []
  | n + 1 => do
    let a ← x
    let as ← repeatRd x n
    pure (a :: as)

/-- A NUL terminated string in a field of `n` bytes. -/
def readCString (n : Int) : Rd Text := do
  let b ← readBytes n
  Rd.pure' (cString b)

/-- `_decode_lists` (decode/vgf.py:3425-3461). -/
def decodeLists (env : VgEnv ν) : Rd (Prod' ν) := do
  let l ← readRec env .big listInfo
  let n ← Rd.pure' (l.int "number_items")
  let items ← repeatRd (readCString 9) n.toNat
  skipBytes ((maxPoints - n) * 9)
  let lat ← readVgWords n
  skipBytes (4 * (maxPoints - n))
  let lon ← readVgWords n
  skipBytes (4 * (maxPoints - n))
  let a ← Rd.pure' (l.pick ["list_type", "marker_type", "marker_size", "marker_width", "number_items"])
  let lt ← Rd.pure' (do enumName 1 listTypeNames (← l.int "list_type"))
  let mt ← Rd.pure' (do enumName 0 markerTypeNames (← l.int "marker_type"))
  pure [("ListElement", a ++ [("list_items", .texts items), ("lat", .raw lat), ("lon", .raw lon),
    ("list_type_name", .text (txt lt)), ("marker_name", .text (txt mt))])]

/-- `VGF_HEADER_SIZE` (/repo/src/gempakio/common.py:52). -/
def vgfHeaderSize : Int := 40

/-- Size in bytes of a field list. -/
def dSize (fs : List DField) : Nat :=
  (fs.map fun f => match f with | .plain _ f => f.size | .conv _ f _ => f.size | .skip n => n).sum

/-- The text after a text structure (decode/vgf.py:3480-3482, 3523-3525). -/
def readVgText (recordSize : Int) (structSize : Nat) : Rd Text := do
  let t ← readCString (recordSize - vgfHeaderSize - structSize)
  pure (strip (dollarBreaks t))

/-- `_decode_text` (decode/vgf.py:3463-3499). -/
def decodeText (env : VgEnv ν) (h : DHdr ν) : Rd (Prod' ν) := do
  let t ← readRec env .big textInfo
  let s ← readVgText h.recordSize (dSize textInfo)
  let r ← Rd.pure' (t.pick ["rotation"])
  let sz ← Rd.pure' (t.pickAs "size" "text_size")
  let a ← Rd.pure' (t.pick ["font", "text_flag", "width", "align", "lat", "lon", "offset_x", "offset_y"])
  pure [("TextElement", r ++ sz ++ a ++ [("text", .text s)])]

/-- `_decode_special_text` (decode/vgf.py:3501-3547). -/
def decodeSpecialText (env : VgEnv ν) (h : DHdr ν) : Rd (Prod' ν) := do
  let t ← readRec env .big specialTextInfo
  let s ← readVgText h.recordSize (dSize specialTextInfo)
  let r ← Rd.pure' (t.pick ["rotation"])
  let sz ← Rd.pure' (t.pickAs "size" "text_size")
  let a ← Rd.pure' (t.pick ["text_type", "turbulence_symbol", "font", "text_flag", "width", "text_color", "line_color",
    "fill_color", "align", "lat", "lon", "offset_x", "offset_y"])
  pure [("SpecialTextElement", r ++ sz ++ a ++ [("text", .text s)])]

/-- `set_mark` and `jump_to` around a second reading. -/
def getMark : Rd Nat := fun b =>
  let r := b.setMark
  .ok (r.2, r.1)

/-- `self._buffer.jump_to(mark)`. -/
def jumpMark (m : Nat) : Rd Unit := fun b => do .ok ((), ← b.jumpTo m 0)

/-- `self._buffer.read_binary(1, '<f')[0]`. -/
def readLittleF32 : Rd F32 := fun b => do
  let r ← b.readStruct .little [.f32]
  match r.2 with
  | [.flt f] => .ok (f, r.1)
  | _ => .error .typeError

/-- The track structure: assume the newest layout, fall back on the older ones (decode/vgf.py:3560-3621). -/
def readTrack (env : VgEnv ν) : Rd (DRec ν × DVal ν) := do
  let mark ← getMark
  let track ← readRec env .big trackInfo
  let fs ← readLittleF32
  let skip ← Rd.pure' (track.int "skip")
  let font ← Rd.pure' (track.int "font")
  if skip < -3 ∨ skip > 4 then do
    jumpMark mark
    let track ← readRec env .big trackInfoOld
    pure (track, .flt 0x3F800000#32)
  else if font < 0 ∨ font > 33 then do
    jumpMark mark
    let track ← readRec env .big trackInfoSkip
    pure (track, .flt 0x3F800000#32)
  else pure (track, .num (env.scalar 1 fs))

/-- `_decode_tracks` (decode/vgf.py:3549-3657). -/
def decodeTracks (env : VgEnv ν) : Rd (Prod' ν) := do
  let tf ← readTrack env
  let track := tf.1
  let n ← Rd.pure' (track.int "total_points")
  let times ← repeatRd (readCString 18) n.toNat
  skipBytes ((50 - n) * 18)
  let ll ← getLatLon env n
  skipBytes (8 * (50 - n))
  let a ← Rd.pure' (track.pick ["track_type", "total_points", "initial_points", "initial_line_type",
    "extrapolated_line_type", "initial_mark_type", "extrapolated_mark_type", "line_width", "speed", "direction",
    "increment"])
  pure [("TrackElement", a ++ track.pickOr [("skip", .int 0), ("font", .int 1), ("font_flag", .int 2)] ++
    [("font_size", tf.2), ("times", .texts times), ("lat", latVal ll), ("lon", lonVal ll)])]

/-- `_decode_sigmet` (decode/vgf.py:3659-3769); the attribute `status` receives the area (decode/vgf.py:3741). -/
def decodeSigmet (env : VgEnv ν) (h : DHdr ν) : Rd (Prod' ν) := do
  let info ← Rd.pure' (if h.version = 0 then .ok sigmetInfo0 else if h.version = 1 then .ok sigmetInfo1
    else .error .unboundLocal)
  let s ← readRec env .big info
  let n ← Rd.pure' (s.int "number_points")
  let lat ← readVgWords n
  let lon ← readVgWords n
  let a ← Rd.pure' (s.pick ["subtype", "number_points", "line_type", "line_width", "side_of_line", "area",
    "flight_info_region"])
  let st ← Rd.pure' (s.pickAs "status" "area")
  let c ← Rd.pure' (s.pick ["distance", "message_id", "sequence_number", "start_time", "end_time", "remarks", "sonic",
    "phenomena"])
  let d ← Rd.pure' (s.pick ["trend", "movement", "type_indicator", "type_time", "flight_level", "speed", "direction",
    "tops", "forecaster"])
  pure [("SigmetElement", a ++ st ++ c ++ s.pickOr [("phenomena2", .text []), ("phenomena_name", .text []),
    ("phenomena_lat", .text []), ("phenomena_lon", .text []), ("pressure", .int (-9999)), ("max_wind", .int (-9999)),
    ("free_text", .text [])] ++ d ++ [("lat", .raw lat), ("lon", .raw lon)])]

/-- `_decode_ccf` (decode/vgf.py:3771-3869). -/
def decodeCcf (env : VgEnv ν) : Rd (Prod' ν) := do
  let ccf ← readRec env .big ccfInfo
  let raw ← readRec env .little ccfInfoNoswap
  let text ← readRec env .big ccfTextInfo
  let layout ← readCString 256
  let n ← Rd.pure' (ccf.int "number_points")
  let ll ← getLatLon env n
  let a ← Rd.pure' (ccf.pick ["subtype", "number_points", "coverage", "storm_tops", "probability", "growth", "speed",
    "direction"])
  let r ← Rd.pure' (raw.pick ["text_lat", "text_lon", "arrow_lat", "arrow_lon", "high_fill", "med_fill", "low_fill",
    "line_type", "arrow_size"])
  let t ← Rd.pure' (text.pick ["rotation", "text_size", "text_type", "turbulence_symbol", "font", "text_flag", "width",
    "fill_color", "align", "offset_x", "offset_y", "text"])
  skipBytes ((100 - n) * 8)
  pure [("CollaborativeConvectiveForecastElement", a ++ r ++ t ++
    [("text_layout", .text layout), ("lat", latVal ll), ("lon", lonVal ll)])]

/-- `_decode_volcanoes` (decode/vgf.py:3871-3949). -/
def decodeVolcanoes (env : VgEnv ν) : Rd (Prod' ν) := do
  let v ← readRec env .big volcanoInfo
  let a ← Rd.pure' (v.pick ["name", "code", "size", "width", "number", "location", "area", "origin_station", "vaac",
    "wmo_id", "header_number", "elevation", "year", "advisory_number", "correction", "info_source",
    "additional_source", "aviation_color", "details", "obs_date", "obs_time", "obs_ash", "forecast_6hr",
    "forecast_12hr", "forecast_18hr", "remarks", "next_advisory", "forecaster", "offset_x", "offset_y", "lat", "lon"])
  pure [("VolcanoElement", a)]

/-- `_decode_ash_clouds` (decode/vgf.py:3951-4032). -/
def decodeAshClouds (env : VgEnv ν) : Rd (Prod' ν) := do
  let ash ← readRec env .big ashInfo
  let text ← readRec env .big ashTextInfo
  let s ← readCString 255
  skipBytes 1
  let n ← Rd.pure' (ash.int "number_points")
  let ll ← getLatLon env n
  skipBytes ((50 - n) * 8)
  let a ← Rd.pure' (ash.pick ["subtype", "number_points", "distance", "forecast_hour", "line_type", "line_width",
    "side_of_line", "speed", "speeds", "direction"])
  let f1 ← Rd.pure' (ash.pickAs "flight_level1" "flight_level_1")
  let f2 ← Rd.pure' (ash.pickAs "flight_level2" "flight_level_2")
  let t ← Rd.pure' (text.pick ["rotation", "text_size", "text_type", "turbulence_symbol", "font", "text_flag", "width",
    "text_color", "line_color", "fill_color", "align"])
  let tla ← Rd.pure' (text.pickAs "text_lat" "lat")
  let tlo ← Rd.pure' (text.pickAs "text_lon" "lon")
  let o ← Rd.pure' (text.pick ["offset_x", "offset_y"])
  pure [("AshCloudElement", a ++ f1 ++ f2 ++ t ++ tla ++ tlo ++ o ++
    [("text", .text s), ("lat", latVal ll), ("lon", lonVal ll)])]

/-- `self._buffer.read_binary(1024, 's')[0]` through `_decode_strip_null` (decode/vgf.py:4042). -/
def readBlock : Rd Text := fun b => do
  let r ← b.readStruct .little [.str 1024]
  match r.2 with
  | [.str s] => .ok (stripNull s, r.1)
  | _ => .error .typeError

/-- `_decode_gfa` (decode/vgf.py:4034-4055). -/
def decodeGfa (env : VgEnv ν) : Rd (Prod' ν) := do
  let g ← readRec env .big gfaInfo
  let nb ← Rd.pure' (g.int "number_blocks")
  let blocks ← repeatRd readBlock nb.toNat
  let n ← Rd.pure' (g.int "number_points")
  let ll ← getLatLon env n
  let a ← Rd.pure' (g.pick ["number_blocks", "number_points"])
  pure [("GraphicalForecastAreaElement", a ++ [("blocks", .texts blocks), ("lat", latVal ll), ("lon", lonVal ll)])]

/-- `self._buffer.read_int(4, 'big', False)`. -/
def readCount : Rd Int := fun b =>
  let r := b.readInt 4 .big false
  .ok (r.2, r.1)

/-- `_decode_jet` (decode/vgf.py:4057-4197). -/
def decodeJet (env : VgEnv ν) : Rd (Prod' ν) := do
  let line ← readRec env .big jetLineInfo
  let n ← Rd.pure' (line.int "number_points")
  let ll ← getLatLon env n
  let la ← Rd.pure' (line.pick ["line_color", "number_points", "line_type", "stroke", "direction", "size", "width"])
  skipBytes ((maxPoints - n) * 8)
  let nb ← readCount
  let barbs ← repeatRd (readRec env .big jetBarbInfo) nb.toNat
  skipBytes ((50 - nb) * dSize jetBarbInfo)
  let nh ← readCount
  let hashes ← repeatRd (readRec env .big jetHashInfo) nh.toNat
  skipBytes ((50 - nh) * dSize jetHashInfo)
  pure [("JetElement", [("line_attribute", .recs [la ++ [("lat", latVal ll), ("lon", lonVal ll)]]),
    ("number_barbs", .int nb), ("barb_attributes", .recs barbs), ("number_hashes", .int nh),
    ("hash_attributes", .recs hashes)])]

/-- `_decode_tca` (decode/vgf.py:4199-4278); the parsing of the text is a parameter. -/
def decodeTca (env : VgEnv ν) (h : DHdr ν) : Rd (Prod' ν) := do
  let t ← readCString (h.recordSize - vgfHeaderSize)
  let rs ← Rd.pure' (env.tca t)
  pure (rs.map fun r => ("TropicalCycloneAdvisoryElement", r))

/-- `_decode_tc_error`, `_decode_tc_track`, `_decode_tc_break_point` (decode/vgf.py:4280-4469): all start with a
structure whose every field has a converter.  What follows it is not modelled: it cannot be reached. -/
def decodeTc (env : VgEnv ν) (info : List DField) : Rd (Prod' ν) := do
  let _ ← readRec env .big info
  Rd.fail .typeError

/-- `_decode_sgwx` (decode/vgf.py:4471-4548): `text.text_width` does not exist (decode/vgf.py:4535). -/
def decodeSgwx (env : VgEnv ν) : Rd (Prod' ν) := do
  let s ← readRec env .big sgwxInfo
  let t ← readRec env .big sgwxTextInfo
  let n ← Rd.pure' (s.int "number_points")
  let _ ← getLatLon env n
  let w ← Rd.pure' (t.get "text_width")
  pure [("SignificantWeatherElement", [("text_width", w)])]

/-- Attributes of a watch box in order, with their defaults (decode/vgf.py:4950-5008); `none`: must be present. -/
def watchAttrs : List (String × Option (DVal ν)) :=
  [("number_points", none), ("style", none), ("shape", none), ("marker_type", some (.int 1)),
    ("marker_size", some (.flt 0x3F800000#32)), ("marker_width", some (.int 1)), ("anchor0_station", some (.text [])),
    ("anchor0_lat", some (.flt missingF32)), ("anchor0_lon", some (.flt missingF32)),
    ("anchor0_distance", some (.flt missingF32)), ("anchor0_direction", some (.text [])),
    ("anchor1_station", some (.text [])), ("anchor1_lat", some (.flt missingF32)),
    ("anchor1_lon", some (.flt missingF32)), ("anchor1_distance", some (.flt missingF32)),
    ("anchor1_direction", some (.text [])), ("status", some (.int 0)), ("number", none),
    ("issue_time", some (.int 0)), ("expire_time", some (.int 0)), ("watch_type", none), ("severity", some (.int 0)),
    ("timezone", some (.text [])), ("max_hail", some (.text [])), ("max_wind", some (.text [])),
    ("max_tops", some (.text [])), ("mean_storm_direction", some (.text [])), ("mean_storm_speed", some (.text [])),
    ("states", some (.text [])), ("adjacent_areas", some (.text [])), ("replacing", some (.text [])),
    ("forecaster", some (.text [])), ("filename", none), ("issue_flag", some (.int 0)),
    ("wsm_issue_time", some (.text [])), ("wsm_expire_time", some (.text [])),
    ("wsm_reference_direction", some (.text [])), ("wsm_recent_from_line", some (.text [])),
    ("wsm_md_number", some (.text [])), ("wsm_forecaster", some (.text [])), ("number_counties", some (.int 0)),
    ("plot_counties", some (.int 1))]

/-- One watch attribute. -/
def watchAttr (w : DRec ν) (x : String × Option (DVal ν)) : Except PyErr (String × DVal ν) :=
  match w.lookup x.1, x.2 with
  | some v, _ => .ok (x.1, v)
  | none, some d => .ok (x.1, d)
  | none, none => .error .attributeError

/-- Layout of a watch by version (decode/vgf.py:4552-4948). -/
def watchInfo : Int → Except PyErr (List DField)
  | 0 => .ok watchInfo0 | 1 => .ok watchInfo1 | 2 => .ok watchInfo2 | 3 => .ok watchInfo3
  | 4 => .ok watchInfo4 | 5 => .ok watchInfo5 | 6 => .ok watchInfo6 | _ => .error .unboundLocal

/-- County tables of a watch: FIPS codes, status, latitudes, longitudes (decode/vgf.py:4567-4948).  Versions 2 to 4 keep
tables of 200 entries, later ones of 400; status is stored up to version 4, FIPS codes from version 4. -/
def readCounties (version : Int) (w : DRec ν) :
    Rd (List Int × List Int × List F32 × List F32) :=
  if version < 2 then pure ([], [], [], [])
  else do
    let nc ← Rd.pure' (w.int "number_counties")
    let size : Int := if version < 5 then 200 else 400
    let status ← if version < 5 then do
        let s ← readVgWords nc
        skipBytes (4 * (size - nc))
        pure (wordInts s)
      else pure []
    let fips ← if version < 4 then pure [] else do
        let s ← readVgWords nc
        skipBytes (4 * (size - nc))
        pure (wordInts s)
    let clat ← readVgWords nc
    let clon ← readVgWords nc
    skipBytes (8 * (size - nc))
    pure (fips, status, clat, clon)

/-- `_decode_watches` (decode/vgf.py:4550-5008). -/
def decodeWatches (env : VgEnv ν) (h : DHdr ν) : Rd (Prod' ν) := do
  let info ← Rd.pure' (watchInfo h.version)
  let w ← readRec env .big info
  let c ← readCounties h.version w
  let n ← Rd.pure' (w.int "number_points")
  let lat ← readVgWords n
  let lon ← readVgWords n
  let ll := closeIf (decide (n > 2)) (lat, lon)
  let a ← Rd.pure' (watchAttrs.mapM (watchAttr w))
  let mt ← match a.lookup "marker_type" with
    | some (.int m) => Rd.pure' (enumName 0 markerTypeNames m)
    | _ => Rd.fail .typeError
  pure [("WatchBoxElement", a ++ [("county_fips", .ints c.1), ("county_status", .ints c.2.1), ("county_lat", .raw c.2.2.1),
    ("county_lon", .raw c.2.2.2), ("lat", .raw ll.1), ("lon", .raw ll.2), ("marker_name", .text (txt mt))])]

/-- `_decode_winds` (decode/vgf.py:5010-5038). -/
def decodeWinds (env : VgEnv ν) : Rd (Prod' ν) := do
  let w ← readRec env .big windInfo
  let a ← Rd.pure' (w.pick ["number_wind", "width", "size", "wind_type", "head_size", "speed", "direction", "lat", "lon"])
  pure [("WindElement", a)]

/-- `_read_header` (decode/vgf.py:5209-5235). -/
def readHeader (env : VgEnv ν) : Rd (DHdr ν) := do
  let r ← readRec env .big vgfHeaderInfo
  match r.map (fun x : String × DVal ν => x.2) with
  | [.int del, .int ty, .int cl, .int fi, .int clo, .int sm, .int ve, .int gt, .int gn, .int mj, .int mn, .int rs,
      .num a, .num b, .num c, .num d] => pure ⟨del, ty, cl, fi, clo, sm, ve, gt, gn, mj, mn, rs, a, b, c, d⟩
  | _ => Rd.fail .typeError

/-- Values of `VGType` (decode/vgf.py:59-103): 1 to 43 without 3. -/
def validType (t : Int) : Bool := decide (1 ≤ t ∧ t ≤ 43 ∧ t ≠ 3)

/-- Values of `VGClass` (decode/vgf.py:37-56): 0 to 16. -/
def validClass (c : Int) : Bool := decide (0 ≤ c ∧ c ≤ 16)

/-- `_validate_header` (decode/vgf.py:5161-5182): true means *invalid*. -/
def invalidHeader (fileSize : Nat) (h : DHdr ν) : Bool :=
  decide (h.delete < 0) || decide (h.delete > 1) || decide (h.vgType < 0) || !validType h.vgType ||
    !validClass h.vgClass || decide (h.majorColor < 0) || decide (h.majorColor > 32) || decide (h.minorColor < 0) ||
    decide (h.minorColor > 32) || decide (h.recordSize > fileSize)

/-- `_decode_file_header` (decode/vgf.py:3260-3267). -/
def decodeFileHeader (h : DHdr ν) : Rd (Prod' ν) := do
  let version ← readBytes 128
  let notes ← readBytes (h.recordSize - vgfHeaderSize - 128)
  pure [("FileHeaderElement", [("gempak_version", .text (stripNull version)), ("notes", .text (stripNull notes))])]

/-- Skip the data of a record that is not decoded (decode/vgf.py:5079, 5089, 5101, 5123, 5148, 5159). -/
def skipData (h : DHdr ν) : Rd (Prod' ν) := do
  skipBytes (h.recordSize - vgfHeaderSize)
  pure []

/-- Dispatch on class and type (decode/vgf.py:5066-5159), the file header excepted. -/
def decodeBody (env : VgEnv ν) (h : DHdr ν) : Rd (Prod' ν) :=
  if h.vgClass = 1 then decodeFronts env
  else if h.vgClass = 4 then decodeSymbols env
  else if h.vgClass = 12 then
    if h.vgType = 4 then decodeCircles env else skipData h
  else if h.vgClass = 3 then
    if h.vgType = 1 then decodeLines env h
    else if h.vgType = 20 then decodeSpecialLines env h
    else skipData h
  else if h.vgClass = 14 then decodeLists env
  else if h.vgClass = 5 then
    if h.vgType = 17 ∨ h.vgType = 18 then decodeText env h
    else if h.vgType = 21 then decodeSpecialText env h
    else skipData h
  else if h.vgClass = 10 then decodeTracks env
  else if h.vgClass = 11 then
    if h.vgType ∈ [30, 29, 28, 31, 27] then decodeSigmet env h
    else if h.vgType = 32 then decodeCcf env
    else if h.vgType = 35 then decodeVolcanoes env
    else if h.vgType = 36 then decodeAshClouds env
    else skipData h
  else if h.vgClass = 15 then
    if h.vgType = 38 then decodeGfa env
    else if h.vgType = 37 then decodeJet env
    else if h.vgType = 39 then decodeTca env h
    else if h.vgType = 40 then decodeTc env tcErrorInfo
    else if h.vgType = 41 then decodeTc env tcTrackInfo
    else if h.vgType = 42 then decodeTc env tcBreakInfo
    else if h.vgType = 43 then decodeSgwx env
    else skipData h
  else if h.vgClass = 2 then decodeWatches env h
  else if h.vgClass = 6 then decodeWinds env
  else skipData h

/-- What a `VectorGraphicFile` holds (decode/vgf.py:2894-2896, 3267). -/
structure VgState (ν : Type) where
  elements : List (DElem ν) := []
  groups : List Int := []
  header : Option (DElem ν) := none

/-- What one turn of the loop does. -/
inductive VgTurn (ν : Type) where
  | stop
  | next (s : VgState ν)

/-- One turn of the loop (decode/vgf.py:5044-5159).  (Groups recorded before an exception are lost with the object.) -/
def vgTurn (env : VgEnv ν) (s : VgState ν) : Rd (VgTurn ν) := fun b => do
  let hb ← readHeader env b
  let h := hb.1
  if invalidHeader b.data.length h then .ok (.stop, hb.2)
  else
    let groups := if h.groupType ∉ s.groups ∧ h.groupType ≠ 0 ∧ h.vgClass ≠ 0 then s.groups ++ [h.groupType] else s.groups
    if h.vgClass = 0 ∧ h.vgType = 22 then do
      let pb ← decodeFileHeader h hb.2
      .ok (.next { s with groups := groups, header := (pb.1.map fun p => ⟨p.1, h, p.2⟩).head? }, pb.2)
    else do
      let pb ← decodeBody env h hb.2
      .ok (.next { s with groups := groups, elements := s.elements ++ pb.1.map fun p => ⟨p.1, h, p.2⟩ }, pb.2)

/-- Outcome of decoding. -/
inductive VgOut (ν : Type) where
  | done (s : VgState ν) | raised (e : PyErr) | outOfFuel

/-- `_decode_elements` (decode/vgf.py:5040-5159) with a bound on the number of turns. -/
def vgLoop (env : VgEnv ν) : Nat → IOBuffer → VgState ν → VgOut ν
  | n, b, s =>
    if b.atEnd then .done s
    else match n with
      | 0 => .outOfFuel
      | n + 1 =>
        match vgTurn env s b with
        | .error e => .raised e
        | .ok (.stop, _) => .done s
        | .ok (.next s', b') => vgLoop env n b' s'

/-- `VectorGraphicFile(file)` (decode/vgf.py:2878-2896). -/
def openVgf (env : VgEnv ν) (fuel : Nat) (data : Bytes) : VgOut ν := vgLoop env fuel (IOBuffer.ofSource data) {}

end Gempak
