import Verif.Props.VgfFile

/-!
# Where a vector graphic file keeps the attributes of its elements (C85)

Byte places count from the start of a record, whose first 40 bytes are the header.  The tables were generated from the field
lists of /repo/src/gempakio/decode/vgf.py:3269-5038, independently of the lists of the model, and give every attribute of the
decoded object its place.
-/

namespace Gempak.Spec
variable {ν : Type}

/-- `n` bytes from byte `i`. -/
def bytesAt (t : Bytes) (i n : Nat) : Bytes := (t.drop i).take n

/-- Single precision number, high byte first. -/
def singleAt (t : Bytes) (i : Nat) : F32 :=
  BitVec.ofNat 32 (((byteAt t i * 256 + byteAt t (i + 1)) * 256 + byteAt t (i + 2)) * 256 + byteAt t (i + 3))

/-- Unsigned word, low byte first. -/
def littleNat (t : Bytes) (i : Nat) : Nat :=
  ((byteAt t (i + 3) * 256 + byteAt t (i + 2)) * 256 + byteAt t (i + 1)) * 256 + byteAt t i

/-- Two's complement word, low byte first. -/
def littleWordAt (t : Bytes) (i : Nat) : Int :=
  if littleNat t i < 2 ^ 31 then littleNat t i else (littleNat t i : Int) - 2 ^ 32

/-- Where and in which form a value is stored. -/
inductive Place where
  /-- Byte. -/
  | byte (i : Nat)
  /-- Two's complement byte. -/
  | signedByte (i : Nat)
  /-- Integer of four bytes. -/
  | word (i : Nat)
  /-- Single precision number, as it is. -/
  | single (i : Nat)
  /-- Single precision number, rounded to `n` decimals. -/
  | rounded (n i : Nat)
  /-- Single precision number, without its fraction. -/
  | whole (i : Nat)
  /-- Text in a field of `n` bytes. -/
  | text (i n : Nat)
  /-- Integer, low byte first. -/
  | littleWord (i : Nat)
  /-- Single precision number, low byte first, rounded to `n` decimals. -/
  | littleRounded (n i : Nat)
  /-- Unsigned integer, low byte first; there is none when the byte stored first is not below 128. -/
  | swapped (i : Nat)
  /-- No place. -/
  | nowhere
  deriving DecidableEq, Repr

/-- The value at a place of the record that starts the bytes `t`. -/
def Place.val (env : VgEnv ν) (t : Bytes) : Place → Option (DVal ν)
  | .byte i => some (.int (byteAt t i))
  | .signedByte i => some (.int (if byteAt t i < 128 then (byteAt t i : Int) else (byteAt t i : Int) - 256))
  | .word i => some (.int (wordAt t i))
  | .single i => some (.flt (singleAt t i))
  | .rounded n i => some (.num (env.scalar n (singleAt t i)))
  | .whole i => (f32Value (singleAt t i)).map fun q => .int (if 0 ≤ q then ⌊q⌋ else ⌈q⌉)
  | .text i n => some (.text (stripNull (bytesAt t i n)))
  | .littleWord i => some (.int (littleWordAt t i))
  | .littleRounded n i => some (.num (env.scalar n (BitVec.ofNat 32 (littleNat t i))))
  | .swapped i => if byteAt t i < 128 then some (.int (littleNat t i)) else none
  | .nowhere => none

/-- Names with values that may be missing. -/
abbrev Fields (ν : Type) := List (String × Option (DVal ν))

/-- The values at the places of a table. -/
def vals (env : VgEnv ν) (t : Bytes) (tbl : List (String × Place)) : Fields ν := tbl.map fun x => (x.1, x.2.val env t)

/-- Attributes as fields. -/
def shown (r : DRec ν) : Fields ν := r.map fun x => (x.1, some x.2)

/-- Fields as attributes, when no value is missing. -/
def whole (f : Fields ν) : Option (DRec ν) := f.mapM fun x => x.2.map fun v => (x.1, v)

/-! ## Tables -/

/-- Front. -/
def frontPlaces : List (String × Place) :=
  [("number_points", .word 40), ("front_code", .word 44), ("pip_size", .word 48), ("pip_stroke", .word 52),
    ("pip_direction", .word 56), ("width", .word 60), ("label", .text 64 4)]

/-- Symbol. -/
def symbolPlaces : List (String × Place) :=
  [("number_symbols", .word 40), ("width", .word 44), ("size", .rounded 1 48), ("symbol_type", .word 52),
    ("symbol_code", .whole 56), ("offset_x", .word 68), ("offset_y", .word 72), ("lat", .rounded 2 60),
    ("lon", .rounded 2 64)]

/-- Line or circle. -/
def linePlaces : List (String × Place) :=
  [("number_points", .word 40), ("line_type", .word 44), ("line_type_hardware", .word 48), ("width", .word 52),
    ("line_width_hardware", .word 56)]

/-- Special line. -/
def specialLinePlaces : List (String × Place) :=
  [("number_points", .word 40), ("line_type", .word 44), ("stroke", .word 48), ("direction", .word 52),
    ("size", .rounded 1 56), ("width", .word 60)]

/-- List. -/
def listPlaces : List (String × Place) :=
  [("list_type", .word 40), ("marker_type", .word 44), ("marker_size", .rounded 1 48), ("marker_width", .word 52),
    ("number_items", .word 56)]

/-- Text. -/
def textPlaces : List (String × Place) :=
  [("rotation", .rounded 1 40), ("size", .rounded 3 44), ("font", .word 48), ("text_flag", .word 52),
    ("width", .word 56), ("align", .word 60), ("lat", .rounded 2 64), ("lon", .rounded 2 68), ("offset_x", .word 72),
    ("offset_y", .word 76)]

/-- Special text. -/
def specialTextPlaces : List (String × Place) :=
  [("rotation", .rounded 1 40), ("size", .rounded 3 44), ("text_type", .word 48), ("turbulence_symbol", .word 52),
    ("font", .word 56), ("text_flag", .word 60), ("width", .word 64), ("text_color", .word 68),
    ("line_color", .word 72), ("fill_color", .word 76), ("align", .word 80), ("lat", .rounded 2 84),
    ("lon", .rounded 2 88), ("offset_x", .word 92), ("offset_y", .word 96)]

/-- Track, common to its three layouts. -/
def trackPlaces : List (String × Place) :=
  [("track_type", .word 40), ("total_points", .word 44), ("initial_points", .word 48),
    ("initial_line_type", .word 52), ("extrapolated_line_type", .word 56), ("initial_mark_type", .word 60),
    ("extrapolated_mark_type", .word 64), ("line_width", .word 68), ("speed", .rounded 2 72),
    ("direction", .rounded 2 76), ("increment", .word 80)]

/-- International SIGMET, beginning; `status`, which the format has at byte 100, is listed where the reader takes it from
(`C85_sigmet_status`). -/
def sigmetFirst : List (String × Place) :=
  [("subtype", .word 40), ("number_points", .word 44), ("line_type", .word 48), ("line_width", .word 52),
    ("side_of_line", .word 56), ("area", .text 60 8), ("flight_info_region", .text 68 32), ("status", .text 60 8),
    ("distance", .single 104), ("message_id", .text 108 12), ("sequence_number", .word 120),
    ("start_time", .text 124 20), ("end_time", .text 144 20), ("remarks", .text 164 80), ("sonic", .word 244),
    ("phenomena", .text 248 32)]

/-- International SIGMET of version 1, fields that version 0 lacks. -/
def sigmetMiddle : List (String × Place) :=
  [("phenomena2", .text 280 32), ("phenomena_name", .text 312 36), ("phenomena_lat", .text 348 8),
    ("phenomena_lon", .text 356 8), ("pressure", .word 364), ("max_wind", .word 368), ("free_text", .text 372 256)]

/-- International SIGMET of version 0, end. -/
def sigmetLast0 : List (String × Place) :=
  [("trend", .text 280 8), ("movement", .text 288 8), ("type_indicator", .word 296), ("type_time", .text 300 20),
    ("flight_level", .word 320), ("speed", .word 324), ("direction", .text 328 4), ("tops", .text 332 80),
    ("forecaster", .text 412 16)]

/-- International SIGMET of version 1, end. -/
def sigmetLast1 : List (String × Place) :=
  [("trend", .text 628 8), ("movement", .text 636 8), ("type_indicator", .word 644), ("type_time", .text 648 20),
    ("flight_level", .word 668), ("speed", .word 672), ("direction", .text 676 4), ("tops", .text 680 80),
    ("forecaster", .text 760 16)]

/-- Collaborative convective forecast. -/
def ccfPlaces : List (String × Place) :=
  [("subtype", .word 40), ("number_points", .word 44), ("coverage", .word 48), ("storm_tops", .word 52),
    ("probability", .word 56), ("growth", .word 60), ("speed", .rounded 2 64), ("direction", .rounded 2 68)]

/-- Its fields kept in the byte order of the machine that wrote them. -/
def ccfLittlePlaces : List (String × Place) :=
  [("text_lat", .littleRounded 2 72), ("text_lon", .littleRounded 2 76), ("arrow_lat", .littleRounded 2 80),
    ("arrow_lon", .littleRounded 2 84), ("high_fill", .littleWord 88), ("med_fill", .littleWord 92),
    ("low_fill", .littleWord 96), ("line_type", .littleWord 100), ("arrow_size", .littleRounded 1 104)]

/-- Its text. -/
def ccfTextPlaces : List (String × Place) :=
  [("rotation", .rounded 1 108), ("text_size", .rounded 3 112), ("text_type", .word 116),
    ("turbulence_symbol", .word 120), ("font", .swapped 124), ("text_flag", .swapped 128), ("width", .swapped 132),
    ("fill_color", .word 144), ("align", .word 148), ("offset_x", .word 160), ("offset_y", .word 164),
    ("text", .text 168 255)]

/-- Volcano. -/
def volcanoPlaces : List (String × Place) :=
  [("name", .text 40 64), ("code", .rounded 1 104), ("size", .rounded 1 108), ("width", .word 112),
    ("number", .text 116 17), ("location", .text 133 17), ("area", .text 150 33), ("origin_station", .text 183 17),
    ("vaac", .text 200 33), ("wmo_id", .text 233 8), ("header_number", .text 241 9), ("elevation", .text 250 9),
    ("year", .text 259 9), ("advisory_number", .text 268 9), ("correction", .text 277 4),
    ("info_source", .text 281 256), ("additional_source", .text 537 256), ("aviation_color", .text 793 16),
    ("details", .text 809 256), ("obs_date", .text 1065 16), ("obs_time", .text 1081 16),
    ("obs_ash", .text 1097 1024), ("forecast_6hr", .text 2121 1024), ("forecast_12hr", .text 3145 1024),
    ("forecast_18hr", .text 4169 1024), ("remarks", .text 5193 512), ("next_advisory", .text 5705 128),
    ("forecaster", .text 5833 64), ("offset_x", .word 5908), ("offset_y", .word 5912), ("lat", .rounded 2 5900),
    ("lon", .rounded 2 5904)]

/-- Ash cloud. -/
def ashPlaces : List (String × Place) :=
  [("subtype", .word 40), ("number_points", .word 44), ("distance", .rounded 2 48), ("forecast_hour", .word 52),
    ("line_type", .word 56), ("line_width", .word 60), ("side_of_line", .word 64), ("speed", .rounded 2 68),
    ("speeds", .text 72 16), ("direction", .text 88 4), ("flight_level1", .text 92 16),
    ("flight_level2", .text 108 16)]

/-- Its text. -/
def ashTextPlaces : List (String × Place) :=
  [("rotation", .rounded 1 124), ("text_size", .rounded 3 128), ("text_type", .word 132),
    ("turbulence_symbol", .word 136), ("font", .word 140), ("text_flag", .word 144), ("width", .word 148),
    ("text_color", .word 152), ("line_color", .word 156), ("fill_color", .word 160), ("align", .word 164),
    ("text_lat", .rounded 2 168), ("text_lon", .rounded 2 172), ("offset_x", .word 176), ("offset_y", .word 180)]

/-- Graphical forecast area. -/
def gfaPlaces : List (String × Place) :=
  [("number_blocks", .word 40), ("number_points", .word 44)]

/-- Line of a jet. -/
def jetLinePlaces : List (String × Place) :=
  [("line_color", .word 40), ("number_points", .word 44), ("line_type", .word 48), ("stroke", .word 52),
    ("direction", .word 56), ("size", .rounded 1 60), ("width", .word 64)]

/-- Barb of a jet, from the start of the barb. -/
def barbPlaces : List (String × Place) :=
  [("wind_color", .word 0), ("number_wind", .word 4), ("width", .word 8), ("size", .rounded 1 12),
    ("wind_type", .word 16), ("head_size", .rounded 1 20), ("speed", .rounded 2 24), ("direction", .rounded 2 28),
    ("lat", .rounded 2 32), ("lon", .rounded 2 36), ("flight_level_color", .word 40),
    ("text_rotation", .rounded 1 44), ("text_size", .rounded 3 48), ("text_type", .word 52),
    ("turbulence_symbol", .word 56), ("font", .word 60), ("text_flag", .word 64), ("text_width", .word 68),
    ("text_color", .word 72), ("line_color", .word 76), ("fill_color", .word 80), ("align", .word 84),
    ("text_lat", .rounded 2 88), ("text_lon", .rounded 2 92), ("offset_x", .word 96), ("offset_y", .word 100),
    ("text", .text 104 255)]

/-- Hash of a jet, from the start of the hash. -/
def hashPlaces : List (String × Place) :=
  [("wind_color", .word 0), ("number_wind", .word 4), ("width", .word 8), ("size", .rounded 1 12),
    ("wind_type", .word 16), ("head_size", .rounded 1 20), ("speed", .rounded 2 24), ("direction", .rounded 2 28),
    ("lat", .rounded 2 32), ("lon", .rounded 2 36)]

/-- Watch of version 0. -/
def watchPlaces0 : List (String × Place) :=
  [("number_points", .word 40), ("style", .word 44), ("watch_type", .word 48), ("number", .word 52),
    ("filename", .text 56 128), ("shape", .word 184)]

/-- Watch of version 1. -/
def watchPlaces1 : List (String × Place) :=
  [("number_points", .word 40), ("style", .word 44), ("shape", .word 48), ("status", .word 52), ("number", .word 56),
    ("issue_time", .text 60 20), ("expire_time", .text 80 20), ("watch_type", .word 100), ("severity", .word 104),
    ("timezone", .text 108 4), ("max_hail", .text 112 8), ("max_wind", .text 120 8), ("max_tops", .text 128 8),
    ("mean_storm_direction", .text 136 8), ("mean_storm_speed", .text 144 8), ("states", .text 152 20),
    ("adjacent_areas", .text 172 20), ("replacing", .text 192 24), ("forecaster", .text 216 64),
    ("filename", .text 280 128), ("issue_flag", .word 408), ("wsm_issue_time", .text 412 20),
    ("wsm_expire_time", .text 432 20), ("wsm_reference_direction", .text 452 32),
    ("wsm_recent_from_line", .text 484 128), ("wsm_md_number", .text 612 8), ("wsm_forecaster", .text 620 64)]

/-- Watch of version 2. -/
def watchPlaces2 : List (String × Place) :=
  [("number_points", .word 40), ("style", .word 44), ("shape", .word 48), ("status", .word 52), ("number", .word 56),
    ("issue_time", .text 60 20), ("expire_time", .text 80 20), ("watch_type", .word 100), ("severity", .word 104),
    ("timezone", .text 108 4), ("max_hail", .text 112 8), ("max_wind", .text 120 8), ("max_tops", .text 128 8),
    ("mean_storm_direction", .text 136 8), ("mean_storm_speed", .text 144 8), ("states", .text 152 20),
    ("adjacent_areas", .text 172 20), ("replacing", .text 192 24), ("forecaster", .text 216 64),
    ("filename", .text 280 128), ("issue_flag", .word 408), ("wsm_issue_time", .text 412 20),
    ("wsm_expire_time", .text 432 20), ("wsm_reference_direction", .text 452 32),
    ("wsm_recent_from_line", .text 484 128), ("wsm_md_number", .text 612 8), ("wsm_forecaster", .text 620 64),
    ("number_counties", .word 684), ("plot_counties", .word 688)]

/-- Watch of version 3. -/
def watchPlaces3 : List (String × Place) :=
  [("number_points", .word 40), ("style", .word 44), ("shape", .word 48), ("anchor0_station", .text 52 8),
    ("anchor0_lat", .rounded 2 60), ("anchor0_lon", .rounded 2 64), ("anchor0_distance", .word 68),
    ("anchor0_direction", .text 72 4), ("anchor1_station", .text 76 8), ("anchor1_lat", .rounded 2 84),
    ("anchor1_lon", .rounded 2 88), ("anchor1_distance", .word 92), ("anchor1_direction", .text 96 4),
    ("status", .word 100), ("number", .word 104), ("issue_time", .text 108 20), ("expire_time", .text 128 20),
    ("watch_type", .word 148), ("severity", .word 152), ("timezone", .text 156 4), ("max_hail", .text 160 8),
    ("max_wind", .text 168 8), ("max_tops", .text 176 8), ("mean_storm_direction", .text 184 8),
    ("mean_storm_speed", .text 192 8), ("states", .text 200 20), ("adjacent_areas", .text 220 20),
    ("replacing", .text 240 24), ("forecaster", .text 264 64), ("filename", .text 328 128),
    ("issue_flag", .word 456), ("wsm_issue_time", .text 460 20), ("wsm_expire_time", .text 480 20),
    ("wsm_reference_direction", .text 500 32), ("wsm_recent_from_line", .text 532 128),
    ("wsm_md_number", .text 660 8), ("wsm_forecaster", .text 668 64), ("number_counties", .word 732),
    ("plot_counties", .word 736)]

/-- Watch of version 4. -/
def watchPlaces4 : List (String × Place) :=
  [("number_points", .word 40), ("style", .word 44), ("shape", .word 48), ("anchor0_station", .text 52 8),
    ("anchor0_lat", .rounded 2 60), ("anchor0_lon", .rounded 2 64), ("anchor0_distance", .word 68),
    ("anchor0_direction", .text 72 4), ("anchor1_station", .text 76 8), ("anchor1_lat", .rounded 2 84),
    ("anchor1_lon", .rounded 2 88), ("anchor1_distance", .word 92), ("anchor1_direction", .text 96 4),
    ("status", .word 100), ("number", .word 104), ("issue_time", .text 108 20), ("expire_time", .text 128 20),
    ("watch_type", .word 148), ("severity", .word 152), ("timezone", .text 156 4), ("max_hail", .text 160 8),
    ("max_wind", .text 168 8), ("max_tops", .text 176 8), ("mean_storm_direction", .text 184 8),
    ("mean_storm_speed", .text 192 8), ("states", .text 200 80), ("adjacent_areas", .text 280 80),
    ("replacing", .text 360 24), ("forecaster", .text 384 64), ("filename", .text 448 128),
    ("issue_flag", .word 576), ("wsm_issue_time", .text 580 20), ("wsm_expire_time", .text 600 20),
    ("wsm_reference_direction", .text 620 32), ("wsm_recent_from_line", .text 652 128),
    ("wsm_md_number", .text 780 8), ("wsm_forecaster", .text 788 64), ("number_counties", .word 852),
    ("plot_counties", .word 856)]

/-- Watch of version 5. -/
def watchPlaces5 : List (String × Place) :=
  [("number_points", .word 40), ("style", .word 44), ("shape", .word 48), ("anchor0_station", .text 52 8),
    ("anchor0_lat", .rounded 2 60), ("anchor0_lon", .rounded 2 64), ("anchor0_distance", .word 68),
    ("anchor0_direction", .text 72 4), ("anchor1_station", .text 76 8), ("anchor1_lat", .rounded 2 84),
    ("anchor1_lon", .rounded 2 88), ("anchor1_distance", .word 92), ("anchor1_direction", .text 96 4),
    ("status", .word 100), ("number", .word 104), ("issue_time", .text 108 20), ("expire_time", .text 128 20),
    ("watch_type", .word 148), ("severity", .word 152), ("timezone", .text 156 4), ("max_hail", .text 160 8),
    ("max_wind", .text 168 8), ("max_tops", .text 176 8), ("mean_storm_direction", .text 184 8),
    ("mean_storm_speed", .text 192 8), ("states", .text 200 80), ("adjacent_areas", .text 280 80),
    ("replacing", .text 360 24), ("forecaster", .text 384 64), ("filename", .text 448 128),
    ("issue_flag", .word 576), ("wsm_issue_time", .text 580 20), ("wsm_expire_time", .text 600 20),
    ("wsm_reference_direction", .text 620 32), ("wsm_recent_from_line", .text 652 128),
    ("wsm_md_number", .text 780 8), ("wsm_forecaster", .text 788 64), ("number_counties", .word 852),
    ("plot_counties", .word 856)]

/-- Watch of version 6. -/
def watchPlaces6 : List (String × Place) :=
  [("number_points", .word 40), ("style", .word 44), ("shape", .word 48), ("marker_type", .word 52),
    ("marker_size", .rounded 1 56), ("marker_width", .word 60), ("anchor0_station", .text 64 8),
    ("anchor0_lat", .rounded 2 72), ("anchor0_lon", .rounded 2 76), ("anchor0_distance", .word 80),
    ("anchor0_direction", .text 84 4), ("anchor1_station", .text 88 8), ("anchor1_lat", .rounded 2 96),
    ("anchor1_lon", .rounded 2 100), ("anchor1_distance", .word 104), ("anchor1_direction", .text 108 4),
    ("status", .word 112), ("number", .word 116), ("issue_time", .text 120 20), ("expire_time", .text 140 20),
    ("watch_type", .word 160), ("severity", .word 164), ("timezone", .text 168 4), ("max_hail", .text 172 8),
    ("max_wind", .text 180 8), ("max_tops", .text 188 8), ("mean_storm_direction", .text 196 8),
    ("mean_storm_speed", .text 204 8), ("states", .text 212 80), ("adjacent_areas", .text 292 80),
    ("replacing", .text 372 24), ("forecaster", .text 396 64), ("filename", .text 460 128),
    ("issue_flag", .word 588), ("wsm_issue_time", .text 592 20), ("wsm_expire_time", .text 612 20),
    ("wsm_reference_direction", .text 632 32), ("wsm_recent_from_line", .text 664 128),
    ("wsm_md_number", .text 792 8), ("wsm_forecaster", .text 800 64), ("number_counties", .word 864),
    ("plot_counties", .word 868)]

/-- Wind. -/
def windPlaces : List (String × Place) :=
  [("number_wind", .word 40), ("width", .word 44), ("size", .rounded 1 48), ("wind_type", .word 52),
    ("head_size", .rounded 1 56), ("speed", .rounded 2 60), ("direction", .rounded 2 64), ("lat", .rounded 2 68),
    ("lon", .rounded 2 72)]

/-- Watch by version. -/
def watchPlaces (v : Nat) : List (String × Place) :=
  match v with
  | 0 => watchPlaces0 | 1 => watchPlaces1 | 2 => watchPlaces2 | 3 => watchPlaces3 | 4 => watchPlaces4
  | 5 => watchPlaces5 | _ => watchPlaces6

/-- Length of header and structure of a watch by version. -/
def watchEnd (v : Nat) : Nat :=
  match v with
  | 0 => 188 | 1 => 684 | 2 => 692 | 3 => 740 | 4 => 860 | 5 => 860 | _ => 872

/-! ## Sequences -/

/-- `n` single precision numbers. -/
def singlesAt (t : Bytes) (i : Nat) (n : Int) : List F32 := (List.range n.toNat).map fun k => singleAt t (i + 4 * k)

/-- `n` integers. -/
def wordsAt (t : Bytes) (i : Nat) (n : Int) : List Int := (List.range n.toNat).map fun k => wordAt t (i + 4 * k)

/-- `n` NUL terminated texts of `w` bytes each; none if one of them is no UTF-8. -/
def textsAt (t : Bytes) (i w : Nat) (n : Int) : Option (List Text) :=
  (List.range n.toNat).mapM fun k => utf8Dec ((bytesAt t (i + w * k) w).takeWhile (· ≠ 0))

/-- A coordinate attribute: `n` rounded numbers, or the number −9999 without points. -/
def coordAt (env : VgEnv ν) (t : Bytes) (i : Nat) (n : Int) : Option (DVal ν) :=
  some (if 1 ≤ n then .arr ((singlesAt t i n).map env.array) else .int (-9999))

/-- The coordinate attributes: `n` latitudes from byte `i`, then `n` longitudes. -/
def pointsAt (env : VgEnv ν) (t : Bytes) (i : Nat) (n : Int) : Fields ν :=
  [("lat", coordAt env t i n), ("lon", coordAt env t (i + 4 * n.toNat) n)]

/-- More than two points of a closed outline are followed by the first one. -/
def ringed {α : Type} (closed : Bool) (xs : List α) : List α :=
  match xs with
  | x :: _ :: _ :: _ => if closed then xs ++ [x] else xs
  | _ => xs

/-- The name of code `i` of an enumeration that starts at `lo`. -/
def codeName (lo : Int) (names : List String) (i : Int) : Option (DVal ν) :=
  if lo ≤ i then (names[(i - lo).toNat]?).map fun s => .text (txt s) else none

/-- The first `w` digits of a code of at least `w` digits. -/
def lead (w c : Nat) : Nat := if c < 10 ^ w then c else lead w (c / 10)
termination_by c
decreasing_by
  have : 1 ≤ 10 ^ w := Nat.one_le_two_pow.trans (Nat.pow_le_pow_left (by omega) w)
  omega

/-- Line styles, from 0. -/
def lineStyles : List String :=
  ["dotted", "solid", "short_dashed", "medium_dashed", "long_dash_short_dash", "long_dash",
    "long_dash_three_short_dash", "long_dash_dot", "long_dash_three_dot", "extra_long_dash_two_dot"]

/-- Special line styles, from 1. -/
def specialLineStyles : List String :=
  ["ball_chain", "zigzag", "scallop", "pointed_arrow", "alt_angle_ticks", "filled_arrow", "box_circles", "two_x",
    "filled_circles", "line_fill_circle_line", "tick_marks", "line_x_line", "fancy_arrow", "fill_circle_x", "box_x",
    "line_circle_line", "line_caret_line1", "line_caret_line2", "sine_curve", "arrow_dashed", "fill_arrow_dash",
    "streamline", "double_line", "kink_line1", "kink_line2", "z_line"]

/-- Markers, from 0. -/
def markers : List String :=
  ["none", "plus_sign", "octagon", "triangle", "box", "small_x", "diamond", "up_arrow", "x_bar", "z_bar", "y",
    "box_diagonals", "asterisk", "hourglass", "star", "dot", "large_x", "filled_octagon", "filled_triangle",
    "filled_box", "filled_diamond", "filled_star", "minus_sign", "tropical_storm", "hurricane"]

/-- Kinds of lists, from 1. -/
def listKinds : List String :=
  ["county", "zone", "wfo", "state", "marine_county"]

/-- Kinds of fronts, from 0. -/
def frontKinds : List String :=
  ["stationary", "stationary_aloft", "warm", "warm_aloft", "cold", "cold_aloft", "occluded", "dryline",
    "intertropical", "convergence"]

/-- Intensities of fronts, from 0. -/
def frontStrengths : List String :=
  ["unspecified", "weak_decreasing", "weak", "weak_increasing", "moderate_decreasing", "moderate",
    "moderate_increasing", "strong_decreasing", "strong", "strong_increasing"]

/-- Characters of fronts, from 0. -/
def frontCharacters : List String :=
  ["unspecified", "frontal_decreasing", "little_change", "area_increasing", "intertropical", "forming_suspected",
    "quasi_stationary", "with_waves", "diffuse", "position_doubtful"]

/-- The attributes that a line code stands for. -/
def lineNaming (code : Int) : Fields ν :=
  let c : Int := lead 2 code.toNat
  [("line_modifier", if 0 ≤ code then some (.int (c / 10)) else none), ("line_style", codeName 0 lineStyles (c % 10))]

/-- The attributes that a front code stands for. -/
def frontNaming (code : Int) : Fields ν :=
  let c : Int := lead 3 code.toNat
  [("front_type", if 0 ≤ code then codeName 0 frontKinds (c / 100) else none),
    ("front_intensity", codeName 0 frontStrengths (c / 10 % 10)), ("front_character", codeName 0 frontCharacters (c % 10))]

/-! ## Records -/

/-- What a record holds: elements as kind and fields, and its length in bytes. -/
structure Content (ν : Type) where
  elems : List (String × Fields ν)
  size : Nat

/-- Front. -/
def frontAt (env : VgEnv ν) (t : Bytes) : Content ν :=
  ⟨[("FrontElement", vals env t frontPlaces ++ pointsAt env t 68 (wordAt t 40) ++ frontNaming (wordAt t 44))],
    68 + 8 * (wordAt t 40).toNat⟩

/-- Symbol. -/
def symbolAt (env : VgEnv ν) (t : Bytes) : Content ν := ⟨[("SymbolElement", vals env t symbolPlaces)], 76⟩

/-- Circle. -/
def circleAt (env : VgEnv ν) (t : Bytes) : Content ν :=
  ⟨[("CircleElement", vals env t linePlaces ++ pointsAt env t 60 (wordAt t 40) ++ lineNaming (wordAt t 44))],
    60 + 8 * (wordAt t 40).toNat⟩

/-- Line; one without points is no element. -/
def lineAt (env : VgEnv ν) (t : Bytes) : Content ν :=
  let n := wordAt t 40
  let c := decide (byteAt t 4 ≠ 0)
  ⟨if n < 1 then [] else [("LineElement", vals env t linePlaces ++
      [("lat", some (.arr (ringed c ((singlesAt t 60 n).map env.array)))),
        ("lon", some (.arr (ringed c ((singlesAt t (60 + 4 * n.toNat) n).map env.array))))] ++
      lineNaming (wordAt t 44))], 60 + 8 * n.toNat⟩

/-- Special line; coordinates of direction −1 come reversed. -/
def specialLineAt (env : VgEnv ν) (t : Bytes) : Content ν :=
  let n := wordAt t 40
  let c := decide (byteAt t 4 ≠ 0)
  ⟨if n < 1 then [] else [("SpecialLineElement", vals env t specialLinePlaces ++
      [("lat", some (.arr (oriented (wordAt t 52) (ringed c ((singlesAt t 64 n).map env.array))))),
        ("lon", some (.arr (oriented (wordAt t 52) (ringed c ((singlesAt t (64 + 4 * n.toNat) n).map env.array))))),
        ("line_style", codeName 1 specialLineStyles (wordAt t 44))])], 64 + 8 * n.toNat⟩

/-- List: three tables of 500 entries. -/
def listAt (env : VgEnv ν) (t : Bytes) : Content ν :=
  let n := wordAt t 56
  ⟨[("ListElement", vals env t listPlaces ++ [("list_items", (textsAt t 60 9 n).map .texts),
      ("lat", some (.raw (singlesAt t 4560 n))), ("lon", some (.raw (singlesAt t 6560 n))),
      ("list_type_name", codeName 1 listKinds (wordAt t 40)),
      ("marker_name", codeName 0 markers (wordAt t 44))])], 8560⟩

/-- The text from byte `i` to the end of the record, `$$` for line breaks. -/
def restText (t : Bytes) (i : Nat) : Option (DVal ν) :=
  (utf8Dec ((bytesAt t i ((wordAt t 20).toNat - i)).takeWhile (· ≠ 0))).map fun s => .text (strip (dollarBreaks s))

/-- Text. -/
def textAt (env : VgEnv ν) (t : Bytes) : Content ν :=
  ⟨[("TextElement", vals env t textPlaces ++ [("text", restText t 80)])], (wordAt t 20).toNat⟩

/-- Special text. -/
def specialTextAt (env : VgEnv ν) (t : Bytes) : Content ν :=
  ⟨[("SpecialTextElement", vals env t specialTextPlaces ++ [("text", restText t 100)])], (wordAt t 20).toNat⟩

/-- Where the structure of a track ends: a skip factor (byte 84) outside −3 .. 4 marks the oldest layout, a font (byte 88)
outside 0 .. 33 the one after it. -/
def trackEnd (t : Bytes) : Nat :=
  if wordAt t 84 < -3 ∨ 4 < wordAt t 84 then 84 else if wordAt t 88 < 0 ∨ 33 < wordAt t 88 then 88 else 100

/-- Track: tables of 50 times and 50 points. -/
def trackAt (env : VgEnv ν) (t : Bytes) : Content ν :=
  let n := wordAt t 44
  let e := trackEnd t
  ⟨[("TrackElement", vals env t trackPlaces ++
      [("skip", some (.int (if e = 84 then 0 else wordAt t 84))),
        ("font", some (.int (if e = 100 then wordAt t 88 else 1))),
        ("font_flag", some (.int (if e = 100 then wordAt t 92 else 2))),
        ("font_size", if e = 100 then (Place.littleRounded 1 96).val env t else some (.flt 0x3F800000#32)),
        ("times", (textsAt t e 18 n).map .texts)] ++ pointsAt env t (e + 900) n)], e + 1300⟩

/-- Fields of a SIGMET of version 0 in place of those it lacks. -/
def sigmetDefaults : Fields ν :=
  [("phenomena2", some (.text [])), ("phenomena_name", some (.text [])), ("phenomena_lat", some (.text [])),
    ("phenomena_lon", some (.text [])), ("pressure", some (.int (-9999))), ("max_wind", some (.int (-9999))),
    ("free_text", some (.text []))]

/-- International SIGMET of version 0. -/
def sigmet0At (env : VgEnv ν) (t : Bytes) : Content ν :=
  let n := wordAt t 44
  ⟨[("SigmetElement", vals env t sigmetFirst ++ sigmetDefaults ++ vals env t sigmetLast0 ++
      [("lat", some (.raw (singlesAt t 428 n))), ("lon", some (.raw (singlesAt t (428 + 4 * n.toNat) n)))])],
    428 + 8 * n.toNat⟩

/-- International SIGMET of version 1. -/
def sigmet1At (env : VgEnv ν) (t : Bytes) : Content ν :=
  let n := wordAt t 44
  ⟨[("SigmetElement", vals env t sigmetFirst ++ vals env t sigmetMiddle ++ vals env t sigmetLast1 ++
      [("lat", some (.raw (singlesAt t 776 n))), ("lon", some (.raw (singlesAt t (776 + 4 * n.toNat) n)))])],
    776 + 8 * n.toNat⟩

/-- Collaborative convective forecast: a table of 100 points. -/
def ccfAt (env : VgEnv ν) (t : Bytes) : Content ν :=
  ⟨[("CollaborativeConvectiveForecastElement", vals env t ccfPlaces ++ vals env t ccfLittlePlaces ++
      vals env t ccfTextPlaces ++ [("text_layout", (utf8Dec ((bytesAt t 424 256).takeWhile (· ≠ 0))).map .text)] ++
      pointsAt env t 680 (wordAt t 44))], 1480⟩

/-- Volcano. -/
def volcanoAt (env : VgEnv ν) (t : Bytes) : Content ν := ⟨[("VolcanoElement", vals env t volcanoPlaces)], 5916⟩

/-- Ash cloud: a table of 50 points. -/
def ashAt (env : VgEnv ν) (t : Bytes) : Content ν :=
  ⟨[("AshCloudElement", vals env t ashPlaces ++ vals env t ashTextPlaces ++
      [("text", (utf8Dec ((bytesAt t 184 255).takeWhile (· ≠ 0))).map .text)] ++ pointsAt env t 440 (wordAt t 44))], 840⟩

/-- Graphical forecast area: blocks of 1024 bytes, then points. -/
def gfaAt (env : VgEnv ν) (t : Bytes) : Content ν :=
  let m := (wordAt t 40).toNat
  let n := wordAt t 44
  ⟨[("GraphicalForecastAreaElement", vals env t gfaPlaces ++
      [("blocks", some (.texts ((List.range m).map fun k => stripNull (bytesAt t (48 + 1024 * k) 1024))))] ++
      pointsAt env t (48 + 1024 * m) n)], 48 + 1024 * m + 8 * n.toNat⟩

/-- Number stored in the four bytes from byte `i`, or in as many as the file still has. -/
def countAt (t : Bytes) (i : Nat) : Nat := (bytesAt t i 4).foldl (fun n b => n * 256 + b.toNat) 0

/-- `n` records of `w` bytes each. -/
def tablesAt (env : VgEnv ν) (t : Bytes) (i w n : Nat) (tbl : List (String × Place)) : Option (List (DRec ν)) :=
  (List.range n).mapM fun k => whole (vals env (t.drop (i + w * k)) tbl)

/-- Jet: a table of 500 points, one of 50 barbs, one of 50 hashes. -/
def jetAt (env : VgEnv ν) (t : Bytes) : Content ν :=
  let n := wordAt t 44
  let nb := countAt t 4068
  let nh := countAt t 22072
  ⟨[("JetElement", [("line_attribute", (whole (vals env t jetLinePlaces ++ pointsAt env t 68 n)).map fun r => .recs [r]),
      ("number_barbs", some (.int nb)), ("barb_attributes", (tablesAt env t 4072 360 nb barbPlaces).map .recs),
      ("number_hashes", some (.int nh)), ("hash_attributes", (tablesAt env t 22076 40 nh hashPlaces).map .recs)])], 24076⟩

/-- Tropical cyclone advisory: all of its record is text. -/
def tcaAt (env : VgEnv ν) (t : Bytes) : Content ν :=
  ⟨match utf8Dec ((bytesAt t 40 ((wordAt t 20).toNat - 40)).takeWhile (· ≠ 0)) with
    | some s => match env.tca s with
      | .ok rs => rs.map fun r => ("TropicalCycloneAdvisoryElement", shown r)
      | .error _ => [("", [("", none)])]
    | none => [("", [("", none)])], (wordAt t 20).toNat⟩

/-- Attributes of a watch in order, and what stands for those that the version lacks. -/
def watchFields : List (String × Option (DVal ν)) :=
  [("number_points", none), ("style", none), ("shape", none), ("marker_type", some (.int 1)),
    ("marker_size", some (.flt 0x3F800000#32)), ("marker_width", some (.int 1)), ("anchor0_station", some (.text [])),
    ("anchor0_lat", some (.flt 0xC61C3C00#32)), ("anchor0_lon", some (.flt 0xC61C3C00#32)),
    ("anchor0_distance", some (.flt 0xC61C3C00#32)), ("anchor0_direction", some (.text [])),
    ("anchor1_station", some (.text [])), ("anchor1_lat", some (.flt 0xC61C3C00#32)),
    ("anchor1_lon", some (.flt 0xC61C3C00#32)), ("anchor1_distance", some (.flt 0xC61C3C00#32)),
    ("anchor1_direction", some (.text [])), ("status", some (.int 0)), ("number", none),
    ("issue_time", some (.int 0)), ("expire_time", some (.int 0)), ("watch_type", none), ("severity", some (.int 0)),
    ("timezone", some (.text [])), ("max_hail", some (.text [])), ("max_wind", some (.text [])),
    ("max_tops", some (.text [])), ("mean_storm_direction", some (.text [])), ("mean_storm_speed", some (.text [])),
    ("states", some (.text [])), ("adjacent_areas", some (.text [])), ("replacing", some (.text [])),
    ("forecaster", some (.text [])), ("filename", none), ("issue_flag", some (.int 0)),
    ("wsm_issue_time", some (.text [])), ("wsm_expire_time", some (.text [])),
    ("wsm_reference_direction", some (.text [])), ("wsm_recent_from_line", some (.text [])),
    ("wsm_md_number", some (.text [])), ("wsm_forecaster", some (.text [])), ("number_counties", some (.int 0)),
    ("plot_counties", some (.int 1))]

/-- Where the points of a watch begin: after the county tables. -/
def watchPoints (v : Nat) : Nat :=
  watchEnd v + (if v < 2 then 0 else if v < 4 then 2400 else if v = 4 then 3200 else 4800)

/-- Number of counties. -/
def watchCounties (v : Nat) (t : Bytes) : Int :=
  match v with
  | 0 => 0 | 1 => 0 | 2 => wordAt t 684 | 3 => wordAt t 732 | 4 => wordAt t 852 | 5 => wordAt t 852 | _ => wordAt t 864

/-- The county tables: FIPS codes, status, latitudes and longitudes, in tables of 200 entries up to version 4 and of 400 from
then on.  Status is kept in versions 2 to 4 and FIPS codes from version 4. -/
def countiesAt (v : Nat) (t : Bytes) : Fields ν :=
  let e := watchEnd v
  let m := watchCounties v t
  let c := if v < 4 then e + 800 else e + 1600
  [("county_fips", some (.ints (if v = 4 then wordsAt t (e + 800) m else if 4 < v then wordsAt t e m else []))),
    ("county_status", some (.ints (if 2 ≤ v ∧ v ≤ 4 then wordsAt t e m else []))),
    ("county_lat", some (.raw (if 2 ≤ v then singlesAt t c m else []))),
    ("county_lon", some (.raw (if 2 ≤ v then singlesAt t (c + 4 * m.toNat) m else [])))]

/-- The value of a watch attribute. -/
def watchField (env : VgEnv ν) (v : Nat) (t : Bytes) (x : String × Option (DVal ν)) : Option (DVal ν) :=
  match (watchPlaces v).lookup x.1 with
  | some p => p.val env t
  | none => x.2

/-- Watch. -/
def watchAt (env : VgEnv ν) (t : Bytes) : Content ν :=
  let v := byteAt t 6
  let n := wordAt t 40
  let p := watchPoints v
  let m := if v = 6 then wordAt t 52 else 1
  ⟨[("WatchBoxElement", watchFields.map (fun x => (x.1, watchField env v t x)) ++ countiesAt v t ++
      [("lat", some (.raw (ringed true (singlesAt t p n)))),
        ("lon", some (.raw (ringed true (singlesAt t (p + 4 * n.toNat) n)))),
        ("marker_name", codeName 0 markers m)])], p + 8 * n.toNat⟩

/-- Wind. -/
def windAt (env : VgEnv ν) (t : Bytes) : Content ν := ⟨[("WindElement", vals env t windPlaces)], 76⟩

/-- A record of a kind that is skipped. -/
def skippedAt (t : Bytes) : Content ν := ⟨[], (wordAt t 20).toNat⟩

/-- A record that is never read. -/
def unreadable : Content ν := ⟨[("", [("", none)])], 0⟩

/-- What a record holds, by its class (byte 2) and type (byte 1); the file header excepted. -/
def contentAt (env : VgEnv ν) (t : Bytes) : Content ν :=
  let y := byteAt t 1
  match byteAt t 2 with
  | 1 => frontAt env t
  | 2 => watchAt env t
  | 3 => if y = 1 then lineAt env t else if y = 20 then specialLineAt env t else skippedAt t
  | 4 => symbolAt env t
  | 5 => if y = 17 ∨ y = 18 then textAt env t else if y = 21 then specialTextAt env t else skippedAt t
  | 6 => windAt env t
  | 10 => trackAt env t
  | 11 =>
    if 27 ≤ y ∧ y ≤ 31 then (if byteAt t 6 = 0 then sigmet0At env t else sigmet1At env t)
    else if y = 32 then ccfAt env t else if y = 35 then volcanoAt env t else if y = 36 then ashAt env t else skippedAt t
  | 12 => if y = 4 then circleAt env t else skippedAt t
  | 14 => listAt env t
  | 15 =>
    if y = 37 then jetAt env t else if y = 38 then gfaAt env t else if y = 39 then tcaAt env t
    else if 40 ≤ y ∧ y ≤ 43 then unreadable else skippedAt t
  | _ => skippedAt t

/-- The counts of a record fit its tables; the size stated by a record that is skipped, or that ends with a text, covers what
comes before. -/
def Regular (t : Bytes) : Prop :=
  let y := byteAt t 1
  let size := wordAt t 20
  match byteAt t 2 with
  | 0 => if y = 22 then 168 ≤ size else 40 ≤ size
  | 1 => True
  | 2 => 0 ≤ wordAt t 40 ∧
      0 ≤ watchCounties (byteAt t 6) t ∧ watchCounties (byteAt t 6) t ≤ (if byteAt t 6 < 5 then 200 else 400)
  | 3 => y = 1 ∨ y = 20 ∨ 40 ≤ size
  | 4 => True
  | 5 => if y = 17 ∨ y = 18 then 80 ≤ size else if y = 21 then 100 ≤ size else 40 ≤ size
  | 6 => True
  | 10 => 0 ≤ wordAt t 44 ∧ wordAt t 44 ≤ 50
  | 11 =>
    if 27 ≤ y ∧ y ≤ 31 then 0 ≤ wordAt t 44
    else if y = 32 then 0 ≤ wordAt t 44 ∧ wordAt t 44 ≤ 100 else if y = 35 then True
    else if y = 36 then 0 ≤ wordAt t 44 ∧ wordAt t 44 ≤ 50 else 40 ≤ size
  | 12 => y = 4 ∨ 40 ≤ size
  | 14 => 0 ≤ wordAt t 56 ∧ wordAt t 56 ≤ 500
  | 15 =>
    if y = 37 then 0 ≤ wordAt t 44 ∧ countAt t 4068 ≤ 50 ∧ countAt t 22072 ≤ 50 else if y = 38 then True
    else if 40 ≤ y ∧ y ≤ 43 then True else 40 ≤ size
  | _ => 40 ≤ size

/-- The header of a record. -/
def headAt (env : VgEnv ν) (t : Bytes) : DHdr ν where
  delete := byteAt t 0
  vgType := byteAt t 1
  vgClass := byteAt t 2
  filled := if byteAt t 3 < 128 then (byteAt t 3 : Int) else (byteAt t 3 : Int) - 256
  closed := byteAt t 4
  smooth := byteAt t 5
  version := byteAt t 6
  groupType := byteAt t 7
  groupNumber := wordAt t 8
  majorColor := wordAt t 12
  minorColor := wordAt t 16
  recordSize := wordAt t 20
  minLat := env.scalar 2 (singleAt t 24)
  minLon := env.scalar 2 (singleAt t 28)
  maxLat := env.scalar 2 (singleAt t 32)
  maxLon := env.scalar 2 (singleAt t 36)

/-- The file header. -/
def fileHeaderAt (env : VgEnv ν) (t : Bytes) : DElem ν :=
  ⟨"FileHeaderElement", headAt env t, [("gempak_version", .text (stripNull (bytesAt t 40 128))),
    ("notes", .text (stripNull (bytesAt t 168 ((wordAt t 20).toNat - 168))))]⟩

/-- The elements are those of the record that starts the bytes `t`. -/
def Shows (env : VgEnv ν) (t : Bytes) (es : List (DElem ν)) : Prop :=
  es.map (fun e => (e.kind, shown e.attrs)) = (contentAt env t).elems ∧ ∀ e ∈ es, e.hdr = headAt env t

/-- `Records env data p h es h'`: from byte `p` on, the file has the elements `es`, one record after the other; `h` is the
file header found before, `h'` the last one found. -/
inductive Records (env : VgEnv ν) (data : Bytes) : Nat → Option (DElem ν) → List (DElem ν) → Option (DElem ν) → Prop
  /-- The end of the file. -/
  | ended {p h} : data.length ≤ p → Records env data p h [] h
  /-- Bytes that are no record end the reading. -/
  | stopped {p h} : p + 40 ≤ data.length → BadRecord data.length (data.drop p) → Records env data p h [] h
  /-- The file header. -/
  | header {p h es h'} : p + 40 ≤ data.length → ¬ BadRecord data.length (data.drop p) → byteAt (data.drop p) 2 = 0 →
      byteAt (data.drop p) 1 = 22 → Regular (data.drop p) →
      Records env data (p + (wordAt (data.drop p) 20).toNat) (some (fileHeaderAt env (data.drop p))) es h' →
      Records env data p h es h'
  /-- A record. -/
  | record {p h es rest h'} : p + 40 ≤ data.length → ¬ BadRecord data.length (data.drop p) →
      ¬ (byteAt (data.drop p) 2 = 0 ∧ byteAt (data.drop p) 1 = 22) → Regular (data.drop p) →
      Shows env (data.drop p) es → Records env data (p + (contentAt env (data.drop p)).size) h rest h' →
      Records env data p h (es ++ rest) h'
  /-- A record whose counts or size do not fit: nothing is said about what follows. -/
  | lost {p h es h'} : p + 40 ≤ data.length → ¬ BadRecord data.length (data.drop p) → ¬ Regular (data.drop p) →
      Records env data p h es h'

end Gempak.Spec
