import Verif.Model.VgfEnc
import Verif.Model.Tools

/-!
# Vector graphic files: record layouts of the decoder

Field lists of /repo/src/gempakio/decode/vgf.py as data.  A field has a format and possibly a converter; `.skip n` is an
unnamed `nx` item.  `'direction '` (decode/vgf.py:5019) loses its trailing blank when `namedtuple` splits the names.
-/

namespace Gempak

/-- Converters used in the field lists. -/
inductive DConv where
  | round (n : Nat) | stripNull | toInt | swap32
  deriving DecidableEq, Repr

/-- One entry of a field list. -/
inductive DField where
  | plain (name : String) (fmt : Fmt)
  | conv (name : String) (fmt : Fmt) (c : DConv)
  | skip (n : Nat)
  deriving DecidableEq, Repr

/-- `front_info` of `_decode_fronts` (decode/vgf.py:3271-3279). -/
def frontInfo : List DField :=
  [.plain "number_points" .i32, .plain "front_code" .i32, .plain "pip_size" .i32, .plain "pip_stroke" .i32,
    .plain "pip_direction" .i32, .plain "width" .i32, .conv "label" (.str 4) .stripNull]

/-- `symbol_info` of `_decode_symbols` (decode/vgf.py:3301-3311). -/
def symbolInfo : List DField :=
  [.plain "number_symbols" .i32, .plain "width" .i32, .conv "symbol_size" .f32 (.round 1), .plain "symbol_type"
    .i32, .conv "symbol_code" .f32 .toInt, .conv "lat" .f32 (.round 2), .conv "lon" .f32 (.round 2), .plain
    "offset_x" .i32, .plain "offset_y" .i32]

/-- `line_info` of `_decode_circles` (decode/vgf.py:3331-3337). -/
def circleInfo : List DField :=
  [.plain "number_points" .i32, .plain "line_type" .i32, .plain "line_type_hardware" .i32, .plain "width" .i32,
    .plain "line_width_hardware" .i32]

/-- `line_info` of `_decode_lines` (decode/vgf.py:3358-3364). -/
def lineInfo : List DField :=
  [.plain "number_points" .i32, .plain "line_type" .i32, .plain "line_type_hardware" .i32, .plain "width" .i32,
    .plain "line_width_hardware" .i32]

/-- `special_line_info` of `_decode_special_lines` (decode/vgf.py:3389-3396). -/
def specialLineInfo : List DField :=
  [.plain "number_points" .i32, .plain "line_type" .i32, .plain "stroke" .i32, .plain "direction" .i32, .conv
    "line_size" .f32 (.round 1), .plain "width" .i32]

/-- `list_info` of `_decode_lists` (decode/vgf.py:3427-3433). -/
def listInfo : List DField :=
  [.plain "list_type" .i32, .plain "marker_type" .i32, .conv "marker_size" .f32 (.round 1), .plain
    "marker_width" .i32, .plain "number_items" .i32]

/-- `text_info` of `_decode_text` (decode/vgf.py:3465-3476). -/
def textInfo : List DField :=
  [.conv "rotation" .f32 (.round 1), .conv "text_size" .f32 (.round 3), .plain "font" .i32, .plain "text_flag"
    .i32, .plain "width" .i32, .plain "align" .i32, .conv "lat" .f32 (.round 2), .conv "lon" .f32 (.round 2),
    .plain "offset_x" .i32, .plain "offset_y" .i32]

/-- `special_text_info` of `_decode_special_text` (decode/vgf.py:3503-3519). -/
def specialTextInfo : List DField :=
  [.conv "rotation" .f32 (.round 1), .conv "text_size" .f32 (.round 3), .plain "text_type" .i32, .plain
    "turbulence_symbol" .i32, .plain "font" .i32, .plain "text_flag" .i32, .plain "width" .i32, .plain
    "text_color" .i32, .plain "line_color" .i32, .plain "fill_color" .i32, .plain "align" .i32, .conv "lat" .f32
    (.round 2), .conv "lon" .f32 (.round 2), .plain "offset_x" .i32, .plain "offset_y" .i32]

/-- `track_info` of `_decode_tracks` (decode/vgf.py:3565-3580). -/
def trackInfo : List DField :=
  [.plain "track_type" .i32, .plain "total_points" .i32, .plain "initial_points" .i32, .plain
    "initial_line_type" .i32, .plain "extrapolated_line_type" .i32, .plain "initial_mark_type" .i32, .plain
    "extrapolated_mark_type" .i32, .plain "line_width" .i32, .conv "speed" .f32 (.round 2), .conv "direction"
    .f32 (.round 2), .plain "increment" .i32, .plain "skip" .i32, .plain "font" .i32, .plain "font_flag" .i32]

/-- `track_info` of `_decode_tracks` (decode/vgf.py:3589-3601). -/
def trackInfoOld : List DField :=
  [.plain "track_type" .i32, .plain "total_points" .i32, .plain "initial_points" .i32, .plain
    "initial_line_type" .i32, .plain "extrapolated_line_type" .i32, .plain "initial_mark_type" .i32, .plain
    "extrapolated_mark_type" .i32, .plain "line_width" .i32, .conv "speed" .f32 (.round 2), .conv "direction"
    .f32 (.round 2), .plain "increment" .i32]

/-- `track_info` of `_decode_tracks` (decode/vgf.py:3606-3619). -/
def trackInfoSkip : List DField :=
  [.plain "track_type" .i32, .plain "total_points" .i32, .plain "initial_points" .i32, .plain
    "initial_line_type" .i32, .plain "extrapolated_line_type" .i32, .plain "initial_mark_type" .i32, .plain
    "extrapolated_mark_type" .i32, .plain "line_width" .i32, .conv "speed" .f32 (.round 2), .conv "direction"
    .f32 (.round 2), .plain "increment" .i32, .plain "skip" .i32]

/-- `sigmet_info` of `_decode_sigmet` (decode/vgf.py:3663-3689). -/
def sigmetInfo0 : List DField :=
  [.plain "subtype" .i32, .plain "number_points" .i32, .plain "line_type" .i32, .plain "line_width" .i32,
    .plain "side_of_line" .i32, .conv "area" (.str 8) .stripNull, .conv "flight_info_region" (.str 32)
    .stripNull, .plain "status" .i32, .plain "distance" .f32, .conv "message_id" (.str 12) .stripNull, .plain
    "sequence_number" .i32, .conv "start_time" (.str 20) .stripNull, .conv "end_time" (.str 20) .stripNull,
    .conv "remarks" (.str 80) .stripNull, .plain "sonic" .i32, .conv "phenomena" (.str 32) .stripNull, .conv
    "trend" (.str 8) .stripNull, .conv "movement" (.str 8) .stripNull, .plain "type_indicator" .i32, .conv
    "type_time" (.str 20) .stripNull, .plain "flight_level" .i32, .plain "speed" .i32, .conv "direction" (.str
    4) .stripNull, .conv "tops" (.str 80) .stripNull, .conv "forecaster" (.str 16) .stripNull]

/-- `sigmet_info` of `_decode_sigmet` (decode/vgf.py:3691-3724). -/
def sigmetInfo1 : List DField :=
  [.plain "subtype" .i32, .plain "number_points" .i32, .plain "line_type" .i32, .plain "line_width" .i32,
    .plain "side_of_line" .i32, .conv "area" (.str 8) .stripNull, .conv "flight_info_region" (.str 32)
    .stripNull, .plain "status" .i32, .plain "distance" .f32, .conv "message_id" (.str 12) .stripNull, .plain
    "sequence_number" .i32, .conv "start_time" (.str 20) .stripNull, .conv "end_time" (.str 20) .stripNull,
    .conv "remarks" (.str 80) .stripNull, .plain "sonic" .i32, .conv "phenomena" (.str 32) .stripNull, .conv
    "phenomena2" (.str 32) .stripNull, .conv "phenomena_name" (.str 36) .stripNull, .conv "phenomena_lat" (.str
    8) .stripNull, .conv "phenomena_lon" (.str 8) .stripNull, .plain "pressure" .i32, .plain "max_wind" .i32,
    .conv "free_text" (.str 256) .stripNull, .conv "trend" (.str 8) .stripNull, .conv "movement" (.str 8)
    .stripNull, .plain "type_indicator" .i32, .conv "type_time" (.str 20) .stripNull, .plain "flight_level"
    .i32, .plain "speed" .i32, .conv "direction" (.str 4) .stripNull, .conv "tops" (.str 80) .stripNull, .conv
    "forecaster" (.str 16) .stripNull]

/-- `ccf_info` of `_decode_ccf` (decode/vgf.py:3773-3782). -/
def ccfInfo : List DField :=
  [.plain "subtype" .i32, .plain "number_points" .i32, .plain "coverage" .i32, .plain "storm_tops" .i32, .plain
    "probability" .i32, .plain "growth" .i32, .conv "speed" .f32 (.round 2), .conv "direction" .f32 (.round 2)]

/-- `ccf_info_noswap` of `_decode_ccf` (decode/vgf.py:3785-3795). -/
def ccfInfoNoswap : List DField :=
  [.conv "text_lat" .f32 (.round 2), .conv "text_lon" .f32 (.round 2), .conv "arrow_lat" .f32 (.round 2), .conv
    "arrow_lon" .f32 (.round 2), .plain "high_fill" .i32, .plain "med_fill" .i32, .plain "low_fill" .i32, .plain
    "line_type" .i32, .conv "arrow_size" .f32 (.round 1)]

/-- `ccf_text_info` of `_decode_ccf` (decode/vgf.py:3804-3822). -/
def ccfTextInfo : List DField :=
  [.conv "rotation" .f32 (.round 1), .conv "text_size" .f32 (.round 3), .plain "text_type" .i32, .plain
    "turbulence_symbol" .i32, .conv "font" .i32 .swap32, .conv "text_flag" .i32 .swap32, .conv "width" .i32
    .swap32, .plain "text_color" .i32, .plain "line_color" .i32, .plain "fill_color" .i32, .plain "align" .i32,
    .conv "lat" .f32 (.round 2), .conv "lon" .f32 (.round 2), .plain "offset_x" .i32, .plain "offset_y" .i32,
    .conv "text" (.str 255) .stripNull, .skip 1]

/-- `volcano_info` of `_decode_volcanoes` (decode/vgf.py:3873-3907). -/
def volcanoInfo : List DField :=
  [.conv "name" (.str 64) .stripNull, .conv "code" .f32 (.round 1), .conv "size" .f32 (.round 1), .plain
    "width" .i32, .conv "number" (.str 17) .stripNull, .conv "location" (.str 17) .stripNull, .conv "area" (.str
    33) .stripNull, .conv "origin_station" (.str 17) .stripNull, .conv "vaac" (.str 33) .stripNull, .conv
    "wmo_id" (.str 8) .stripNull, .conv "header_number" (.str 9) .stripNull, .conv "elevation" (.str 9)
    .stripNull, .conv "year" (.str 9) .stripNull, .conv "advisory_number" (.str 9) .stripNull, .conv
    "correction" (.str 4) .stripNull, .conv "info_source" (.str 256) .stripNull, .conv "additional_source" (.str
    256) .stripNull, .conv "aviation_color" (.str 16) .stripNull, .conv "details" (.str 256) .stripNull, .conv
    "obs_date" (.str 16) .stripNull, .conv "obs_time" (.str 16) .stripNull, .conv "obs_ash" (.str 1024)
    .stripNull, .conv "forecast_6hr" (.str 1024) .stripNull, .conv "forecast_12hr" (.str 1024) .stripNull, .conv
    "forecast_18hr" (.str 1024) .stripNull, .conv "remarks" (.str 512) .stripNull, .conv "next_advisory" (.str
    128) .stripNull, .conv "forecaster" (.str 64) .stripNull, .skip 3, .conv "lat" .f32 (.round 2), .conv "lon"
    .f32 (.round 2), .plain "offset_x" .i32, .plain "offset_y" .i32]

/-- `ash_info` of `_decode_ash_clouds` (decode/vgf.py:3953-3966). -/
def ashInfo : List DField :=
  [.plain "subtype" .i32, .plain "number_points" .i32, .conv "distance" .f32 (.round 2), .plain "forecast_hour"
    .i32, .plain "line_type" .i32, .plain "line_width" .i32, .plain "side_of_line" .i32, .conv "speed" .f32
    (.round 2), .conv "speeds" (.str 16) .stripNull, .conv "direction" (.str 4) .stripNull, .conv
    "flight_level_1" (.str 16) .stripNull, .conv "flight_level_2" (.str 16) .stripNull]

/-- `special_text_info` of `_decode_ash_clouds` (decode/vgf.py:3970-3986). -/
def ashTextInfo : List DField :=
  [.conv "rotation" .f32 (.round 1), .conv "text_size" .f32 (.round 3), .plain "text_type" .i32, .plain
    "turbulence_symbol" .i32, .plain "font" .i32, .plain "text_flag" .i32, .plain "width" .i32, .plain
    "text_color" .i32, .plain "line_color" .i32, .plain "fill_color" .i32, .plain "align" .i32, .conv "lat" .f32
    (.round 2), .conv "lon" .f32 (.round 2), .plain "offset_x" .i32, .plain "offset_y" .i32]

/-- `gfa_info` of `_decode_gfa` (decode/vgf.py:4036-4036). -/
def gfaInfo : List DField :=
  [.plain "number_blocks" .i32, .plain "number_points" .i32]

/-- `jet_line_info` of `_decode_jet` (decode/vgf.py:4059-4067). -/
def jetLineInfo : List DField :=
  [.plain "line_color" .i32, .plain "number_points" .i32, .plain "line_type" .i32, .plain "stroke" .i32, .plain
    "direction" .i32, .conv "size" .f32 (.round 1), .plain "width" .i32]

/-- `jet_barb_info` of `_decode_jet` (decode/vgf.py:4088-4117). -/
def jetBarbInfo : List DField :=
  [.plain "wind_color" .i32, .plain "number_wind" .i32, .plain "width" .i32, .conv "size" .f32 (.round 1),
    .plain "wind_type" .i32, .conv "head_size" .f32 (.round 1), .conv "speed" .f32 (.round 2), .conv "direction"
    .f32 (.round 2), .conv "lat" .f32 (.round 2), .conv "lon" .f32 (.round 2), .plain "flight_level_color" .i32,
    .conv "text_rotation" .f32 (.round 1), .conv "text_size" .f32 (.round 3), .plain "text_type" .i32, .plain
    "turbulence_symbol" .i32, .plain "font" .i32, .plain "text_flag" .i32, .plain "text_width" .i32, .plain
    "text_color" .i32, .plain "line_color" .i32, .plain "fill_color" .i32, .plain "align" .i32, .conv "text_lat"
    .f32 (.round 2), .conv "text_lon" .f32 (.round 2), .plain "offset_x" .i32, .plain "offset_y" .i32, .conv
    "text" (.str 255) .stripNull, .skip 1]

/-- `jet_hash_info` of `_decode_jet` (decode/vgf.py:4160-4171). -/
def jetHashInfo : List DField :=
  [.plain "wind_color" .i32, .plain "number_wind" .i32, .plain "width" .i32, .conv "size" .f32 (.round 1),
    .plain "wind_type" .i32, .conv "head_size" .f32 (.round 1), .conv "speed" .f32 (.round 2), .conv "direction"
    .f32 (.round 2), .conv "lat" .f32 (.round 2), .conv "lon" .f32 (.round 2)]

/-- `tc_info` of `_decode_tc_error` (decode/vgf.py:4282-4292). -/
def tcErrorInfo : List DField :=
  [.conv "storm_number" (.str 5) .stripNull, .conv "issue_status" (.str 2) .stripNull, .conv "basin" (.str 5)
    .stripNull, .conv "advisory_number" (.str 5) .stripNull, .conv "storm_name" (.str 128) .stripNull, .conv
    "storm_type" (.str 5) .stripNull, .conv "valid_time" (.str 21) .stripNull, .conv "timezone" (.str 4)
    .stripNull, .conv "forecast_period" (.str 5) .stripNull]

/-- `tc_info` of `_decode_tc_track` (decode/vgf.py:4332-4342). -/
def tcTrackInfo : List DField :=
  [.conv "storm_number" (.str 5) .stripNull, .conv "issue_status" (.str 2) .stripNull, .conv "basin" (.str 5)
    .stripNull, .conv "advisory_number" (.str 5) .stripNull, .conv "storm_name" (.str 128) .stripNull, .conv
    "storm_type" (.str 5) .stripNull, .conv "valid_time" (.str 21) .stripNull, .conv "timezone" (.str 4)
    .stripNull, .conv "forecast_period" (.str 5) .stripNull]

/-- `tc_info` of `_decode_tc_break_point` (decode/vgf.py:4415-4425). -/
def tcBreakInfo : List DField :=
  [.conv "storm_number" (.str 5) .stripNull, .conv "issue_status" (.str 2) .stripNull, .conv "basin" (.str 5)
    .stripNull, .conv "advisory_number" (.str 5) .stripNull, .conv "storm_name" (.str 128) .stripNull, .conv
    "storm_type" (.str 5) .stripNull, .conv "valid_time" (.str 21) .stripNull, .conv "timezone" (.str 4)
    .stripNull, .conv "forecast_period" (.str 5) .stripNull]

/-- `sgwx_info` of `_decode_sgwx` (decode/vgf.py:4473-4486). -/
def sgwxInfo : List DField :=
  [.plain "subtype" .i32, .plain "number_points" .i32, .conv "text_lat" .f32 (.round 2), .conv "text_lon" .f32
    (.round 2), .conv "arrow_lat" .f32 (.round 2), .conv "arrow_lon" .f32 (.round 2), .plain "line_element"
    .i32, .plain "line_type" .i32, .plain "line_width" .i32, .conv "arrow_size" .f32 (.round 1), .plain
    "special_symbol" .i32, .plain "weather_symbol" .i32]

/-- `special_text_info` of `_decode_sgwx` (decode/vgf.py:4490-4506). -/
def sgwxTextInfo : List DField :=
  [.conv "rotation" .f32 (.round 1), .conv "text_size" .f32 (.round 3), .plain "text_type" .i32, .plain
    "turbulence_symbol" .i32, .plain "font" .i32, .plain "text_flag" .i32, .plain "width" .i32, .plain
    "text_color" .i32, .plain "line_color" .i32, .plain "fill_color" .i32, .plain "align" .i32, .conv "lat" .f32
    (.round 2), .conv "lon" .f32 (.round 2), .plain "offset_x" .i32, .plain "offset_y" .i32]

/-- `watch_info` of `_decode_watches` (decode/vgf.py:4554-4561). -/
def watchInfo0 : List DField :=
  [.plain "number_points" .i32, .plain "style" .i32, .plain "watch_type" .i32, .plain "number" .i32, .conv
    "filename" (.str 128) .stripNull, .plain "shape" .i32]

/-- `watch_info` of `_decode_watches` (decode/vgf.py:4581-4609). -/
def watchInfo1 : List DField :=
  [.plain "number_points" .i32, .plain "style" .i32, .plain "shape" .i32, .plain "status" .i32, .plain "number"
    .i32, .conv "issue_time" (.str 20) .stripNull, .conv "expire_time" (.str 20) .stripNull, .plain "watch_type"
    .i32, .plain "severity" .i32, .conv "timezone" (.str 4) .stripNull, .conv "max_hail" (.str 8) .stripNull,
    .conv "max_wind" (.str 8) .stripNull, .conv "max_tops" (.str 8) .stripNull, .conv "mean_storm_direction"
    (.str 8) .stripNull, .conv "mean_storm_speed" (.str 8) .stripNull, .conv "states" (.str 20) .stripNull,
    .conv "adjacent_areas" (.str 20) .stripNull, .conv "replacing" (.str 24) .stripNull, .conv "forecaster"
    (.str 64) .stripNull, .conv "filename" (.str 128) .stripNull, .plain "issue_flag" .i32, .conv
    "wsm_issue_time" (.str 20) .stripNull, .conv "wsm_expire_time" (.str 20) .stripNull, .conv
    "wsm_reference_direction" (.str 32) .stripNull, .conv "wsm_recent_from_line" (.str 128) .stripNull, .conv
    "wsm_md_number" (.str 8) .stripNull, .conv "wsm_forecaster" (.str 64) .stripNull]

/-- `watch_info` of `_decode_watches` (decode/vgf.py:4629-4659). -/
def watchInfo2 : List DField :=
  [.plain "number_points" .i32, .plain "style" .i32, .plain "shape" .i32, .plain "status" .i32, .plain "number"
    .i32, .conv "issue_time" (.str 20) .stripNull, .conv "expire_time" (.str 20) .stripNull, .plain "watch_type"
    .i32, .plain "severity" .i32, .conv "timezone" (.str 4) .stripNull, .conv "max_hail" (.str 8) .stripNull,
    .conv "max_wind" (.str 8) .stripNull, .conv "max_tops" (.str 8) .stripNull, .conv "mean_storm_direction"
    (.str 8) .stripNull, .conv "mean_storm_speed" (.str 8) .stripNull, .conv "states" (.str 20) .stripNull,
    .conv "adjacent_areas" (.str 20) .stripNull, .conv "replacing" (.str 24) .stripNull, .conv "forecaster"
    (.str 64) .stripNull, .conv "filename" (.str 128) .stripNull, .plain "issue_flag" .i32, .conv
    "wsm_issue_time" (.str 20) .stripNull, .conv "wsm_expire_time" (.str 20) .stripNull, .conv
    "wsm_reference_direction" (.str 32) .stripNull, .conv "wsm_recent_from_line" (.str 128) .stripNull, .conv
    "wsm_md_number" (.str 8) .stripNull, .conv "wsm_forecaster" (.str 64) .stripNull, .plain "number_counties"
    .i32, .plain "plot_counties" .i32]

/-- `watch_info` of `_decode_watches` (decode/vgf.py:4685-4725). -/
def watchInfo3 : List DField :=
  [.plain "number_points" .i32, .plain "style" .i32, .plain "shape" .i32, .conv "anchor0_station" (.str 8)
    .stripNull, .conv "anchor0_lat" .f32 (.round 2), .conv "anchor0_lon" .f32 (.round 2), .plain
    "anchor0_distance" .i32, .conv "anchor0_direction" (.str 4) .stripNull, .conv "anchor1_station" (.str 8)
    .stripNull, .conv "anchor1_lat" .f32 (.round 2), .conv "anchor1_lon" .f32 (.round 2), .plain
    "anchor1_distance" .i32, .conv "anchor1_direction" (.str 4) .stripNull, .plain "status" .i32, .plain
    "number" .i32, .conv "issue_time" (.str 20) .stripNull, .conv "expire_time" (.str 20) .stripNull, .plain
    "watch_type" .i32, .plain "severity" .i32, .conv "timezone" (.str 4) .stripNull, .conv "max_hail" (.str 8)
    .stripNull, .conv "max_wind" (.str 8) .stripNull, .conv "max_tops" (.str 8) .stripNull, .conv
    "mean_storm_direction" (.str 8) .stripNull, .conv "mean_storm_speed" (.str 8) .stripNull, .conv "states"
    (.str 20) .stripNull, .conv "adjacent_areas" (.str 20) .stripNull, .conv "replacing" (.str 24) .stripNull,
    .conv "forecaster" (.str 64) .stripNull, .conv "filename" (.str 128) .stripNull, .plain "issue_flag" .i32,
    .conv "wsm_issue_time" (.str 20) .stripNull, .conv "wsm_expire_time" (.str 20) .stripNull, .conv
    "wsm_reference_direction" (.str 32) .stripNull, .conv "wsm_recent_from_line" (.str 128) .stripNull, .conv
    "wsm_md_number" (.str 8) .stripNull, .conv "wsm_forecaster" (.str 64) .stripNull, .plain "number_counties"
    .i32, .plain "plot_counties" .i32]

/-- `watch_info` of `_decode_watches` (decode/vgf.py:4751-4791). -/
def watchInfo4 : List DField :=
  [.plain "number_points" .i32, .plain "style" .i32, .plain "shape" .i32, .conv "anchor0_station" (.str 8)
    .stripNull, .conv "anchor0_lat" .f32 (.round 2), .conv "anchor0_lon" .f32 (.round 2), .plain
    "anchor0_distance" .i32, .conv "anchor0_direction" (.str 4) .stripNull, .conv "anchor1_station" (.str 8)
    .stripNull, .conv "anchor1_lat" .f32 (.round 2), .conv "anchor1_lon" .f32 (.round 2), .plain
    "anchor1_distance" .i32, .conv "anchor1_direction" (.str 4) .stripNull, .plain "status" .i32, .plain
    "number" .i32, .conv "issue_time" (.str 20) .stripNull, .conv "expire_time" (.str 20) .stripNull, .plain
    "watch_type" .i32, .plain "severity" .i32, .conv "timezone" (.str 4) .stripNull, .conv "max_hail" (.str 8)
    .stripNull, .conv "max_wind" (.str 8) .stripNull, .conv "max_tops" (.str 8) .stripNull, .conv
    "mean_storm_direction" (.str 8) .stripNull, .conv "mean_storm_speed" (.str 8) .stripNull, .conv "states"
    (.str 80) .stripNull, .conv "adjacent_areas" (.str 80) .stripNull, .conv "replacing" (.str 24) .stripNull,
    .conv "forecaster" (.str 64) .stripNull, .conv "filename" (.str 128) .stripNull, .plain "issue_flag" .i32,
    .conv "wsm_issue_time" (.str 20) .stripNull, .conv "wsm_expire_time" (.str 20) .stripNull, .conv
    "wsm_reference_direction" (.str 32) .stripNull, .conv "wsm_recent_from_line" (.str 128) .stripNull, .conv
    "wsm_md_number" (.str 8) .stripNull, .conv "wsm_forecaster" (.str 64) .stripNull, .plain "number_counties"
    .i32, .plain "plot_counties" .i32]

/-- `watch_info` of `_decode_watches` (decode/vgf.py:4819-4859). -/
def watchInfo5 : List DField :=
  [.plain "number_points" .i32, .plain "style" .i32, .plain "shape" .i32, .conv "anchor0_station" (.str 8)
    .stripNull, .conv "anchor0_lat" .f32 (.round 2), .conv "anchor0_lon" .f32 (.round 2), .plain
    "anchor0_distance" .i32, .conv "anchor0_direction" (.str 4) .stripNull, .conv "anchor1_station" (.str 8)
    .stripNull, .conv "anchor1_lat" .f32 (.round 2), .conv "anchor1_lon" .f32 (.round 2), .plain
    "anchor1_distance" .i32, .conv "anchor1_direction" (.str 4) .stripNull, .plain "status" .i32, .plain
    "number" .i32, .conv "issue_time" (.str 20) .stripNull, .conv "expire_time" (.str 20) .stripNull, .plain
    "watch_type" .i32, .plain "severity" .i32, .conv "timezone" (.str 4) .stripNull, .conv "max_hail" (.str 8)
    .stripNull, .conv "max_wind" (.str 8) .stripNull, .conv "max_tops" (.str 8) .stripNull, .conv
    "mean_storm_direction" (.str 8) .stripNull, .conv "mean_storm_speed" (.str 8) .stripNull, .conv "states"
    (.str 80) .stripNull, .conv "adjacent_areas" (.str 80) .stripNull, .conv "replacing" (.str 24) .stripNull,
    .conv "forecaster" (.str 64) .stripNull, .conv "filename" (.str 128) .stripNull, .plain "issue_flag" .i32,
    .conv "wsm_issue_time" (.str 20) .stripNull, .conv "wsm_expire_time" (.str 20) .stripNull, .conv
    "wsm_reference_direction" (.str 32) .stripNull, .conv "wsm_recent_from_line" (.str 128) .stripNull, .conv
    "wsm_md_number" (.str 8) .stripNull, .conv "wsm_forecaster" (.str 64) .stripNull, .plain "number_counties"
    .i32, .plain "plot_counties" .i32]

/-- `watch_info` of `_decode_watches` (decode/vgf.py:4883-4926). -/
def watchInfo6 : List DField :=
  [.plain "number_points" .i32, .plain "style" .i32, .plain "shape" .i32, .plain "marker_type" .i32, .conv
    "marker_size" .f32 (.round 1), .plain "marker_width" .i32, .conv "anchor0_station" (.str 8) .stripNull,
    .conv "anchor0_lat" .f32 (.round 2), .conv "anchor0_lon" .f32 (.round 2), .plain "anchor0_distance" .i32,
    .conv "anchor0_direction" (.str 4) .stripNull, .conv "anchor1_station" (.str 8) .stripNull, .conv
    "anchor1_lat" .f32 (.round 2), .conv "anchor1_lon" .f32 (.round 2), .plain "anchor1_distance" .i32, .conv
    "anchor1_direction" (.str 4) .stripNull, .plain "status" .i32, .plain "number" .i32, .conv "issue_time"
    (.str 20) .stripNull, .conv "expire_time" (.str 20) .stripNull, .plain "watch_type" .i32, .plain "severity"
    .i32, .conv "timezone" (.str 4) .stripNull, .conv "max_hail" (.str 8) .stripNull, .conv "max_wind" (.str 8)
    .stripNull, .conv "max_tops" (.str 8) .stripNull, .conv "mean_storm_direction" (.str 8) .stripNull, .conv
    "mean_storm_speed" (.str 8) .stripNull, .conv "states" (.str 80) .stripNull, .conv "adjacent_areas" (.str
    80) .stripNull, .conv "replacing" (.str 24) .stripNull, .conv "forecaster" (.str 64) .stripNull, .conv
    "filename" (.str 128) .stripNull, .plain "issue_flag" .i32, .conv "wsm_issue_time" (.str 20) .stripNull,
    .conv "wsm_expire_time" (.str 20) .stripNull, .conv "wsm_reference_direction" (.str 32) .stripNull, .conv
    "wsm_recent_from_line" (.str 128) .stripNull, .conv "wsm_md_number" (.str 8) .stripNull, .conv
    "wsm_forecaster" (.str 64) .stripNull, .plain "number_counties" .i32, .plain "plot_counties" .i32]

/-- `wind_info` of `_decode_winds` (decode/vgf.py:5012-5022). -/
def windInfo : List DField :=
  [.plain "number_wind" .i32, .plain "width" .i32, .conv "size" .f32 (.round 1), .plain "wind_type" .i32, .conv
    "head_size" .f32 (.round 1), .conv "speed" .f32 (.round 2), .conv "direction" .f32 (.round 2), .conv "lat"
    .f32 (.round 2), .conv "lon" .f32 (.round 2)]

/-- `vgf_header_info` of `_read_header` (decode/vgf.py:5216-5233). -/
def vgfHeaderInfo : List DField :=
  [.plain "delete" .u8, .plain "vg_type" .u8, .plain "vg_class" .u8, .plain "filled" .i8, .plain "closed" .u8,
    .plain "smooth" .u8, .plain "version" .u8, .plain "group_type" .u8, .plain "group_number" .i32, .plain
    "major_color" .i32, .plain "minor_color" .i32, .plain "record_size" .i32, .conv "min_lat" .f32 (.round 2),
    .conv "min_lon" .f32 (.round 2), .conv "max_lat" .f32 (.round 2), .conv "max_lon" .f32 (.round 2)]

end Gempak
