import Verif.Model.VgfDec

/-!
# What a written vector graphic file reads as (C54, C55, C59, C67)

The attributes of the decoded object as a function of the attributes of the object that was added to the file.
`env.scalar` and `env.array` are the rounding of single precision numbers done by the decoder.
-/

namespace Gempak.Spec
variable {ν : Type}

/-- Header of the decoded element. -/
def dHead (env : VgEnv ν) (h : VgHead) : DHdr ν where
  delete := h.delete
  vgType := h.vgType
  vgClass := h.vgClass
  filled := h.filled
  closed := h.closed
  smooth := h.smooth
  version := h.version
  groupType := h.groupType
  groupNumber := h.groupNumber
  majorColor := h.majorColor
  minorColor := h.minorColor
  recordSize := h.recordSize
  minLat := env.scalar 2 h.minLat
  minLon := env.scalar 2 h.minLon
  maxLat := env.scalar 2 h.maxLat
  maxLon := env.scalar 2 h.maxLon

/-- Coordinates of a closed line of at least three points are followed by the first point. -/
def ring (closed : Int) (xs : List ν) : List ν :=
  match xs with
  | x :: _ :: _ :: _ => if closed = 1 then xs ++ [x] else xs
  | _ => xs

/-- Coordinates of a special line of direction −1 come reversed. -/
def oriented (direction : Int) (xs : List ν) : List ν := if direction = -1 then xs.reverse else xs

/-- What is kept of a text of which `n` bytes are written: its characters up to a NUL or as far as the bytes go, nothing at all if the bytes end
inside a character. -/
def keptText : Text → Nat → Option Text
  | [], _ => some []
  | c :: s, n =>
    if n = 0 ∨ c = Char.ofNat 0 then some []
    else if (utf8Enc c).length ≤ n then (keptText s (n - (utf8Enc c).length)).map (c :: ·)
    else none

/-- A special text that can be read: as many bytes are written as the text has characters, and these bytes are whole characters. -/
def Whole (s : Text) : Prop := (keptText s s.length).isSome

/-- The decoded element. -/
def dElem (env : VgEnv ν) : VgElem → DElem ν
  | .fileHeader h _ _ => ⟨"FileHeaderElement", dHead env h,
      [("gempak_version", .text (txt "Version 7.19.0")), ("notes", .text (txt "NAWIPS Vector Graphic Format"))]⟩
  | .line l => ⟨"LineElement", dHead env l.base.head,
      [("number_points", .int l.base.lon.length), ("line_type", .int l.lineType), ("line_type_hardware", .int 0),
        ("width", .int l.base.width), ("line_width_hardware", .int 0),
        ("lat", .arr (ring l.base.head.closed (l.base.lat.map env.array))),
        ("lon", .arr (ring l.base.head.closed (l.base.lon.map env.array))),
        ("line_modifier", .int (l.lineType / 10)),
        ("line_style", .text (txt (lineTypeNames.getD (l.lineType % 10).toNat "")))]⟩
  | .front f => ⟨"FrontElement", dHead env f.head,
      [("number_points", .int f.lon.length), ("front_code", .int f.frontCode), ("pip_size", .int f.pipSize),
        ("pip_stroke", .int f.pipStroke), ("pip_direction", .int f.pipDirection), ("width", .int f.width),
        ("label", .text (txt "SPC")), ("lat", .arr (f.lat.map env.array)), ("lon", .arr (f.lon.map env.array)),
        ("front_type", .text (txt (frontTypeNames.getD f.frontType.toNat ""))),
        ("front_intensity", .text (txt (frontIntensityNames.getD f.frontIntensity.toNat ""))),
        ("front_character", .text (txt (frontCharacterNames.getD f.frontCharacter.toNat "")))]⟩
  | .specialLine l => ⟨"SpecialLineElement", dHead env l.base.head,
      [("number_points", .int l.base.lon.length), ("line_type", .int l.lineType), ("stroke", .int l.stroke),
        ("direction", .int l.direction), ("size", .num (env.scalar 1 l.size)), ("width", .int l.base.width),
        ("lat", .arr (oriented l.direction (ring l.base.head.closed (l.base.lat.map env.array)))),
        ("lon", .arr (oriented l.direction (ring l.base.head.closed (l.base.lon.map env.array)))),
        ("line_style", .text (txt (specialLineTypeNames.getD (l.lineType - 1).toNat "")))]⟩
  | .specialText t => ⟨"SpecialTextElement", dHead env t.head,
      [("rotation", .num (env.scalar 1 t.rotation)),
        ("size", match pointsToSize t.size with | .ok s => .num (env.scalar 3 s) | .error _ => .int 0),
        ("text_type", .int t.textType), ("turbulence_symbol", .int t.turbulenceSymbol), ("font", .int t.font),
        ("text_flag", .int t.textFlag), ("width", .int t.width), ("text_color", .int t.textColor),
        ("line_color", .int t.edgecolor), ("fill_color", .int t.facecolor), ("align", .int t.align),
        ("lat", .num (env.scalar 2 t.lat)), ("lon", .num (env.scalar 2 t.lon)), ("offset_x", .int t.offsetX),
        ("offset_y", .int t.offsetY),
        ("text", .text (strip (dollarBreaks ((keptText t.text t.text.length).getD []))))]⟩
  | .specialSymbol s | .marker s => ⟨"SymbolElement", dHead env s.head,
      [("number_symbols", .int 1), ("width", .int s.width), ("size", .num (env.scalar 1 s.size)),
        ("symbol_type", .int 0), ("symbol_code", .int s.symbolCode), ("offset_x", .int s.offsetX),
        ("offset_y", .int s.offsetY), ("lat", .num (env.scalar 2 s.lat)), ("lon", .num (env.scalar 2 s.lon))]⟩

/-- Elements within reach of the round trip: in range, no file header among them, texts whose written bytes are whole characters, symbol codes within the
integers of single precision. -/
def Plain : VgElem → Prop
  | .fileHeader _ _ _ => False
  | .specialText t => Whole t.text
  | .specialSymbol s | .marker s => 0 ≤ s.symbolCode ∧ s.symbolCode < 2 ^ 24
  | _ => True

/-- A special text that cannot be read. -/
def BadText (e : VgElem) : Prop := ∃ t, e = .specialText t ∧ ¬ Whole t.text

end Gempak.Spec
