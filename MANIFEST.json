{
 "claims": [
  {
   "property": "C01",
   "status": "proved",
   "theorems": [
    "Gempak.Grib.C01_round_trip"
   ],
   "note": ""
  },
  {
   "property": "C02",
   "status": "proved",
   "theorems": [
    "Gempak.Grib.C02_pack_layout",
    "Gempak.Grib.C02_pack_single_word"
   ],
   "note": ""
  },
  {
   "property": "C03",
   "status": "proved",
   "theorems": [
    "Gempak.Grib.C03_unpack_fields"
   ],
   "note": ""
  },
  {
   "property": "C04",
   "status": "proved",
   "theorems": [
    "Gempak.Grib.C04_half_step"
   ],
   "note": "exact rationals; floating point rounding not modelled; read without missing flag (flag collision is C05)"
  },
  {
   "property": "C05",
   "status": "partial",
   "theorems": [
    "Gempak.Grib.C05_missing_iff_partial",
    "Gempak.Grib.C05_flag_collision"
   ],
   "note": "full claim is false: in the coarsening branch the maximum can round to the missing flag (witness)"
  },
  {
   "property": "C06",
   "status": "proved",
   "theorems": [
    "Gempak.Grib.C06_scale_optimal",
    "Gempak.Grib.C06_negligible"
   ],
   "note": ""
  },
  {
   "property": "C07",
   "status": "proved",
   "theorems": [
    "Gempak.Grib.C07_constant",
    "Gempak.Grib.C07_all_missing",
    "Gempak.Grib.C07_one_word"
   ],
   "note": ""
  },
  {
   "property": "C08",
   "status": "proved",
   "theorems": [
    "Gempak.Grib.C08_bad_width"
   ],
   "note": ""
  },
  {
   "property": "C09",
   "status": "proved",
   "theorems": [
    "Gempak.C09_regions",
    "Gempak.C09_data_area",
    "Gempak.C11_pointers"
   ],
   "note": "for the label as read back from the saved bytes; the records lie in the data area (C09_data_area), none overlapping another (C11_pointers)"
  },
  {
   "property": "C10",
   "status": "partial",
   "theorems": [
    "Gempak.C10_structure_partial",
    "Gempak.C10_row_headers",
    "Gempak.C10_column_headers",
    "Gempak.C10_saves",
    "Gempak.C10_scale_offset_swapped"
   ],
   "note": "everything reads back except that scale and offset of the parameters are exchanged (proved as deviation)"
  },
  {
   "property": "C100",
   "status": "partial",
   "theorems": [
    "Gempak.C100_wind_partial",
    "Gempak.C100_ignored",
    "Gempak.C100_upper_lost"
   ],
   "note": "proved for reports with mandatory temperatures in the lower part; false without, where the winds of the upper part are lost (C100_upper_lost). As in C87, winds by height in the lower part may replace the wind later"
  },
  {
   "property": "C101",
   "status": "partial",
   "theorems": [
    "Gempak.C101_tropopause",
    "Gempak.C101_significant",
    "Gempak.C87_mandatory_partial"
   ],
   "note": "false: with one tropopause no such report can be merged (C101_tropopause, for all of them), and significant levels below the first mandatory level raise ValueError (C101_significant). C87_mandatory_partial also covers reports without surface pressure: if they are merged their mandatory levels are kept"
  },
  {
   "property": "C102",
   "status": "partial",
   "theorems": [
    "Gempak.C102_parameters",
    "Gempak.C102_twice",
    "Gempak.C102_levels_partial",
    "Gempak.C102_levels"
   ],
   "note": "proved for parameters that differ in upper case and for fewer than 500 levels; false for exactly 500 levels, which are refused (C102_levels), and for names given twice, where it depends on their order (C102_twice)"
  },
  {
   "property": "C103",
   "status": "partial",
   "theorems": [
    "Gempak.C103_iff",
    "Gempak.C103_counterexample"
   ],
   "note": "C103_iff says for all sequences of calls when it holds; false for times that differ in seconds only (C103_counterexample), coordinates that differ by less than their unit, and years a century apart"
  },
  {
   "property": "C104",
   "status": "partial",
   "theorems": [
    "Gempak.C104_reports",
    "Gempak.C104_partial",
    "Gempak.C104_succeeds",
    "Gempak.C104_counterexample"
   ],
   "note": "C104_reports says for all saved files what is returned; false when stations inside and outside of the area have one identifier, for instance none (C104_counterexample)"
  },
  {
   "property": "C105",
   "status": "partial",
   "theorems": [
    "Gempak.C105_surface_partial",
    "Gempak.C105_sounding_partial",
    "Gempak.C105_hundredths",
    "Gempak.C105_quarters",
    "Gempak.C105_counterexample",
    "Gempak.C106_counterexample"
   ],
   "note": "with the rounding of 64-bit floats: kept at quarters of a degree, and otherwise kept or read one hundredth nearer to zero; false for 64.10, which is read as 64.09 (C105_counterexample), and copies move on (C106_counterexample)"
  },
  {
   "property": "C106",
   "status": "partial",
   "theorems": [
    "Gempak.C106_copy_partial",
    "Gempak.C106_succeeds",
    "Gempak.C106_counterexample"
   ],
   "note": "every copy can be made (C106_succeeds). It has the same reports when the coordinates read are kept if written again and no two reports are alike; otherwise C106_copy_partial says which. False where a coordinate is not kept (C106_counterexample)"
  },
  {
   "property": "C107",
   "status": "partial",
   "theorems": [
    "Gempak.C107_iff",
    "Gempak.C107_counterexample"
   ],
   "note": "C107_iff says for all sequences of calls when it holds; false for identifiers that agree in four characters (C107_counterexample), and as in C103"
  },
  {
   "property": "C108",
   "status": "proved",
   "theorems": [
    "Gempak.C108_from_report",
    "Gempak.C50_lines"
   ],
   "note": "for parts of mandatory temperatures with the six parameters each once, and the usual missing value -9999. Pressures of the surface may be replaced by one next to them (1e-5 of it)"
  },
  {
   "property": "C109",
   "status": "partial",
   "theorems": [
    "Gempak.Grib.C109_resave_partial",
    "Gempak.Grib.C109_float_partial",
    "Gempak.Grib.C109_counterexample"
   ],
   "note": "proved in exact arithmetic for all grids of which no value was lost to the missing flag (C05), and with the rounding of floating point numbers when the missing value is not above the others and the reference is at most 2^45 steps; false when a value was lost: the next copy is coarser (C109_counterexample). Grids whose range is rounded up beyond 31 bits are refused"
  },
  {
   "property": "C11",
   "status": "proved",
   "theorems": [
    "Gempak.C11_pointers",
    "Gempak.C11_records_apart"
   ],
   "note": ""
  },
  {
   "property": "C110",
   "status": "partial",
   "theorems": [
    "Gempak.Grib.C110_between_partial",
    "Gempak.Grib.C110_coarse",
    "Gempak.Grib.C110_counterexample"
   ],
   "note": "false: the range includes the value that stands for missing, for all grids (C110_coarse); true when that value lies between the others. C110_counterexample: 0.3 reads as 0.25"
  },
  {
   "property": "C111",
   "status": "partial",
   "theorems": [
    "Gempak.C111_times_partial",
    "Gempak.C111_tuple",
    "Gempak.C111_caller"
   ],
   "note": "all forms except tuples with texts, which raise TypeError for every file (C111_tuple); a list of the caller with texts in it is changed (C111_caller)"
  },
  {
   "property": "C112",
   "status": "partial",
   "theorems": [
    "Gempak.C112_numbers_partial",
    "Gempak.C112_digits",
    "Gempak.C112_text",
    "Gempak.C112_zero"
   ],
   "note": "integers and lists of integers and texts; a text of several digits selects the stations whose numbers are its digits (C112_digits, C112_text), and nearest_time refuses number zero (C112_zero)"
  },
  {
   "property": "C113",
   "status": "partial",
   "theorems": [
    "Gempak.C113_levels_partial",
    "Gempak.C113_temperatures",
    "Gempak.C113_winds",
    "Gempak.C113_heights",
    "Gempak.C113_heights_upper",
    "Gempak.C113_nothing_else",
    "Gempak.C113_no_other_winds"
   ],
   "note": "end to end, from the words of the file to the datasets: mandatory levels, significant temperatures and tropopauses, significant winds on pressure, maximum winds and winds by height; and nothing else. Heights of mandatory levels unless a tropopause is at the pressure of the level, their winds unless winds are given by height (both false otherwise, C87); winds by height under the conditions of C96, a metre or more apart and between the surface and the highest level"
  },
  {
   "property": "C114",
   "status": "partial",
   "theorems": [
    "Gempak.C114_copy_partial",
    "Gempak.C114_unchanged",
    "Gempak.C114_file",
    "Gempak.C114_again",
    "Gempak.C114_succeeds",
    "Gempak.C114_equal_levels",
    "Gempak.C114_pressure",
    "Gempak.C114_swapped"
   ],
   "note": "copies have the same sites, times and rows, when coordinates are kept (C105, C106) and soundings differ in site or time (C107); the order of levels is kept for heights and for pressures that differ. Rows of one pressure are turned round by each copy (C114_equal_levels, C114_swapped), and the station pressure becomes that of the first level (C114_pressure)"
  },
  {
   "property": "C115",
   "status": "proved",
   "theorems": [
    "Gempak.C115_opens",
    "Gempak.symbolFile_complete"
   ],
   "note": "for every file satisfying Spec.CompleteFile, whose conditions are about bytes of the file only: counts that fit the tables (Spec.Regular), at most 500 points, versions of SIGMET to 1 and of watches to 6 (Spec.Known), all bytes present, all texts and codes readable (Legible). Cyclone track, error cone, break point and significant weather records are never read (C74), so files with them are not complete in this sense"
  },
  {
   "property": "C116",
   "status": "proved",
   "theorems": [
    "Gempak.C116_from_axes",
    "Gempak.C116_from_points",
    "Gempak.C116_same",
    "Gempak.C116_same_bytes"
   ],
   "note": "pyproj is any pair of maps; coordinates are rationals. With floating point numbers the maps are inverse to each other only up to rounding, then the two files agree up to that"
  },
  {
   "property": "C117",
   "status": "partial",
   "theorems": [
    "Gempak.C117_falls_partial",
    "Gempak.C117_once_partial",
    "Gempak.C117_heights_partial",
    "Gempak.real_lineFalls"
   ],
   "note": "For reports with a surface pressure. Without winds by height: pressures fall (no mandatory levels below the ground), or no pressure occurs twice (mandatory levels below the ground that differ in pressure). With winds by height: the pressures given fall, when the heights of the merged levels rise; winds above the highest level have no pressure. Missing: winds by height together with levels below the ground, and reports without a surface pressure (those mostly cannot be merged, C101)."
  },
  {
   "property": "C118",
   "status": "proved",
   "theorems": [
    "Gempak.C118_winds_from_report",
    "Gempak.C50_winds",
    "Gempak.interpDirection_turned"
   ],
   "note": "for parts of mandatory temperatures with the six parameters each once, and the usual missing value -9999. At which level a wind by height is stored is the subject of C96"
  },
  {
   "property": "C119",
   "status": "proved",
   "theorems": [
    "Gempak.C119_structure",
    "Gempak.C119_soundings",
    "Gempak.C119_surface",
    "Gempak.C119_grids"
   ],
   "note": "for tables whose pointers are positive (they count words from one), and entries with no unused header before theirs: the reader passes over one word only for an unused header (decode/gempak.py:665, 1184, 2219), so what follows it is read from other places"
  },
  {
   "property": "C12",
   "status": "partial",
   "theorems": [
    "Gempak.C12_block_multiple_partial",
    "Gempak.C12_unpadded",
    "Gempak.C12_counterexample"
   ],
   "note": "holds when the last cell of the table holds data; false otherwise (exact condition and counterexample proved)"
  },
  {
   "property": "C120",
   "status": "partial",
   "theorems": [
    "Gempak.C120_accepted",
    "Gempak.C120_copy_partial",
    "Gempak.C120_no_level",
    "Gempak.C120_alike"
   ],
   "note": "For grids with a level, names without blanks at the borders of four letters, and a known coordinate (Spec.Copyable), of which at one time all or none have a second time. Types are lost (all become analyses), grids listed without level are refused (C120_no_level), and of grids alike but for the type only the last is kept (C120_alike); the navigation is the subject of C79."
  },
  {
   "property": "C121",
   "status": "proved",
   "theorems": [
    "Gempak.C121_reports",
    "Gempak.C121_soundings",
    "Gempak.C121_grids",
    "Gempak.C121_times_partial",
    "Gempak.C121_sounding_times_partial",
    "Gempak.C121_window"
   ],
   "note": "under the conditions of the round trips (C14, C15, C16); the order of stations needs a host that compares coordinates as numbers. For years of 1969 to 2068 the listed times are in order too; with other years they need not be, since those move into that window (C121_window)."
  },
  {
   "property": "C122",
   "status": "proved",
   "theorems": [
    "Gempak.C122_grids",
    "Gempak.C122_surface",
    "Gempak.C122_soundings",
    "Gempak.C122_unmerged",
    "Gempak.C122_grid_positions",
    "Gempak.C122_surface_positions",
    "Gempak.C122_sounding_positions",
    "Gempak.C122_unmerged_positions"
   ],
   "note": "for a second model of the readers with the buffer as state that survives exceptions (Model/Cursor); it is shown to give what the models by byte positions give, so all other theorems about reading hold for it too. That returned arrays are not views of the buffer is not modelled."
  },
  {
   "property": "C123",
   "status": "partial",
   "theorems": [
    "Gempak.C123_surface_as_grid",
    "Gempak.C123_sounding_as_grid",
    "Gempak.C123_grid_as_surface",
    "Gempak.C123_grid_as_sounding",
    "Gempak.C123_sounding_as_surface",
    "Gempak.C123_surface_as_sounding",
    "Gempak.C123_surface_keys",
    "Gempak.C123_sounding_keys",
    "Gempak.C123_grid_keys",
    "Gempak.C123_no_soundings"
   ],
   "note": "Surface and sounding files are not refused by each other's reader: they open and list all their stations (C123_sounding_as_surface, C123_surface_as_sounding), but queries raise or give nothing. Files with at least one entry, except for C123_grid_as_surface."
  },
  {
   "property": "C124",
   "status": "partial",
   "theorems": [
    "Gempak.C124_values",
    "Gempak.C124_empty"
   ],
   "note": "For files whose table of pointers and header lengths are not negative (Spec.Addressable). A listed grid without a record is not left out when its part has one to seven header words, as usual: words of the title of the file are taken for the kind of packing and the whole call raises (C124_empty). Infinite and undefined plain numbers count as missing in the model."
  },
  {
   "property": "C125",
   "status": "partial",
   "theorems": [
    "Gempak.C125_copy_partial",
    "Gempak.C125_grows",
    "Gempak.C125_full",
    "Gempak.C125_turned"
   ],
   "note": "The full claim is false: C125_grows shows that a closed line has one point more after every copy, C125_full that a file with a closed line of 500 points has no copy, C125_turned that the points of an open special line of direction -1 come in the opposite order in the copy. C125_copy_partial proves the claim for open lines (and closed ones of two points), fronts, special lines of direction 1, symbols and markers whose integers fit in 32 bits. Special texts are left out: their constructor wants the height in points and the decoded size is a ratio. Rounding of numbers is a parameter; it is assumed to change nothing when applied to a rounded number."
  },
  {
   "property": "C126",
   "status": "partial",
   "theorems": [
    "Gempak.C126_vapour",
    "Gempak.C126_mixing",
    "Gempak.C126_mixing_pressure",
    "Gempak.C126_bound",
    "Gempak.C126_unit",
    "Gempak.C126_virtual",
    "Gempak.C126_warmer",
    "Gempak.C126_thickness",
    "Gempak.C126_layers"
   ],
   "note": "All but the unit, which is false: mixing_ratio is documented in kg/kg but returns grams (C126_unit: above 3 at 0 C and 1000 hPa). Real arithmetic. Mixing ratios are compared where they are not missing; where the air could not hold the vapour (C47) it counts as dry. For two steps the height between must not be the missing mark."
  },
  {
   "property": "C127",
   "status": "partial",
   "theorems": [
    "Gempak.C127_surface_partial",
    "Gempak.C127_ground",
    "Gempak.C127_first_partial",
    "Gempak.C127_height_lost"
   ],
   "note": "C127_surface_partial: the surface is a level of the merged sounding with these values; its wind clause covers reports without lower winds by height. C127_ground: with lower winds by height (missing value -9999) the surface has the wind reported at height zero, else that of the first mandatory level. C127_first_partial: it is the first level when no pressure of the report is greater, winds are by pressure, no mandatory level is below the ground and the missing value is -9999. The full claim is false: a tropopause reported at the surface pressure deletes the height of the surface (C127_height_lost)."
  },
  {
   "property": "C128",
   "status": "proved",
   "theorems": [
    "Gempak.C128_reports",
    "Gempak.C128_soundings",
    "Gempak.C128_grids",
    "Gempak.C128_reports_same",
    "Gempak.C128_soundings_same",
    "Gempak.C128_grids_same"
   ],
   "note": "Within the limit of headers (for grids: when every call of one order succeeds, which it then does in every order). Coordinates are compared by a total order of the host (Spec.Compares); NaN coordinates, which cannot be written, are left out."
  },
  {
   "property": "C129",
   "status": "partial",
   "theorems": [
    "Gempak.C129_surface",
    "Gempak.C129_surface_each",
    "Gempak.C129_special",
    "Gempak.C129_sounding_partial",
    "Gempak.C129_sounding_each",
    "Gempak.C129_unmerged_partial",
    "Gempak.C129_unmerged_each",
    "Gempak.C129_state",
    "Gempak.C129_grid_partial",
    "Gempak.C129_grid_each"
   ],
   "note": "Surface files without restriction. Soundings, merged or not, when states and countries are given in one form, as texts or as lists; false otherwise: a state in lower case finds soundings when given alone, a list with it finds none (C129_state). Grids unless the earliest or latest second time is asked for and some grid has none (C34_second_time)."
  },
  {
   "property": "C13",
   "status": "proved",
   "theorems": [
    "Gempak.C13_repeatable",
    "Gempak.C13_any_number",
    "Gempak.C13_state",
    "Gempak.C13_save"
   ],
   "note": ""
  },
  {
   "property": "C130",
   "status": "partial",
   "theorems": [
    "Gempak.C130_grid_partial",
    "Gempak.C130_surface",
    "Gempak.C130_sounding",
    "Gempak.C130_unmerged",
    "Gempak.C130_all_lost",
    "Gempak.C130_grid_cut_partial",
    "Gempak.C130_surface_cut",
    "Gempak.C130_sounding_cut",
    "Gempak.C130_unmerged_cut"
   ],
   "note": "Reports and soundings without restriction; grids that have a record, unless the earliest or latest second time is asked for and some grid has none (C34_second_time). The structure has to end within the first n bytes (Spec.HeadEnds) and the damage to keep these; the file may get longer or shorter (\u2026_cut: files that are cut off or continued, with no further hypothesis on the bytes). C130_all_lost: a query that asks for a damaged grid, too, returns nothing at all."
  },
  {
   "property": "C131",
   "status": "proved",
   "theorems": [
    "Gempak.C131_joined",
    "Gempak.C131_appended",
    "Gempak.C131_all_lost"
   ],
   "note": "Complete records are those of C115 (all their bytes are there, counts fit, texts and codes can be read), up to the last byte of the file (Spec.FullFile). C131_all_lost: one byte too many at the end of a file and none of its elements can be had."
  },
  {
   "property": "C132",
   "status": "partial",
   "theorems": [
    "Gempak.C132_surface",
    "Gempak.C132_sounding_partial",
    "Gempak.C132_case",
    "Gempak.C132_grid",
    "Gempak.C132_nearest",
    "Gempak.C132_nearest_twice"
   ],
   "note": "Grids and surface files without restriction. Soundings when lists of states and countries name them in the same case; false otherwise (C132_case). False for nearest_time, which follows the order of the list and returns a station as often as it is named (C132_nearest, C132_nearest_twice)."
  },
  {
   "property": "C133",
   "status": "proved",
   "theorems": [
    "Gempak.C133_report_new",
    "Gempak.C133_report_again",
    "Gempak.C133_report_refused",
    "Gempak.C133_sounding_new",
    "Gempak.C133_sounding_again",
    "Gempak.C133_sounding_refused"
   ],
   "note": "For files that are saved and read back (SurfaceOutput, SoundingOutput: names that do not clash, dates that exist, at most 32000 headers). What is read is compared up to order; the order is that of C121."
  },
  {
   "property": "C14",
   "status": "proved",
   "theorems": [
    "Gempak.C14_round_trip",
    "Gempak.C14_saves",
    "Gempak.C14_empty"
   ],
   "note": "for every history of add_station calls, in any byte order; names fit four characters and do not clash with header keys"
  },
  {
   "property": "C15",
   "status": "partial",
   "theorems": [
    "Gempak.C15_round_trip_partial",
    "Gempak.C15_saves",
    "Gempak.C15_no_levels",
    "Gempak.C28_sounding_id"
   ],
   "note": "for every history of add_sounding calls with at least one level each; false for soundings without levels (snxarray raises IndexError, proved) and identifiers beyond four characters (proved)"
  },
  {
   "property": "C16",
   "status": "partial",
   "theorems": [
    "Gempak.C16_round_trip_partial",
    "Gempak.C16_names_partial",
    "Gempak.C16_numbers",
    "Gempak.C16_small",
    "Gempak.C16_constant_writes",
    "Gempak.C16_flat",
    "Gempak.C16_blanks",
    "Gempak.C16_lead",
    "Gempak.C16_lead_moved",
    "Gempak.C16_lead_negative",
    "Gempak.C16_lead_type",
    "Gempak.C16_too_long",
    "Gempak.C16_lead_unreadable",
    "Gempak.C16_too_early",
    "Gempak.C16_analysis_negative",
    "Gempak.C16_minutes_negative",
    "Gempak.C16_minutes_unwritable",
    "Gempak.C16_undecodable",
    "Gempak.C16_multibyte",
    "Gempak.C16_writes",
    "Gempak.C17_grid",
    "Gempak.C19_grid_history"
   ],
   "note": "every history of successful add_grid calls, any byte order. C16_names_partial covers all names that can be decoded and all lead times that fit their word, C16_numbers all lead times that can be read, with what is read for them. The full claim is false: distinct names may be listed as one (C16_blanks); lead times with a hundred minutes or more and negative ones are moved (C16_lead, C16_lead_moved, C16_lead_negative), become another type (C16_lead_type) or make the file unreadable (C16_too_long, C16_lead_unreadable, C16_too_early, C16_analysis_negative) or impossible to write (C16_minutes_negative, C16_minutes_unwritable), and so does one name cut inside a character (C16_undecodable, C16_multibyte). Grids whose values take at most 32 bits in all are lost or cannot be written (C16_small, C16_flat)"
  },
  {
   "property": "C17",
   "status": "proved",
   "theorems": [
    "Gempak.C17_last_wins",
    "Gempak.C17_sounding",
    "Gempak.C17_grid",
    "Gempak.C17_survivors",
    "Gempak.C17_other_keys",
    "Gempak.C17_grid_survivors",
    "Gempak.C17_grid_other_keys",
    "Gempak.C14_round_trip"
   ],
   "note": "surface, sounding and grid files"
  },
  {
   "property": "C18",
   "status": "proved",
   "theorems": [
    "Gempak.C18_nan",
    "Gempak.C18_values",
    "Gempak.C18_sounding",
    "Gempak.C18_grid",
    "Gempak.C18_grid_values"
   ],
   "note": "grid values are rounded to the packing precision as well"
  },
  {
   "property": "C19",
   "status": "proved",
   "theorems": [
    "Gempak.C19_parameters",
    "Gempak.C19_station",
    "Gempak.C19_sounding",
    "Gempak.C19_headers",
    "Gempak.C19_sounding_headers",
    "Gempak.C19_grid",
    "Gempak.C19_grid_history"
   ],
   "note": "surface, sounding and grid files"
  },
  {
   "property": "C20",
   "status": "proved",
   "theorems": [
    "Gempak.C20_byte_order",
    "Gempak.C20_host"
   ],
   "note": ""
  },
  {
   "property": "C21",
   "status": "partial",
   "theorems": [
    "Gempak.C21_banner",
    "Gempak.C21_refused_partial"
   ],
   "note": "refused always; the exception is TypeError only for 28 or more bytes of valid UTF-8 (exact classification proved)"
  },
  {
   "property": "C22",
   "status": "proved",
   "theorems": [
    "Gempak.C22_date",
    "Gempak.C22_date_same",
    "Gempak.C22_date_off",
    "Gempak.C22_time",
    "Gempak.C22_time_words",
    "Gempak.C22_reads_valid"
   ],
   "note": "dates of 1969-2068 read back unchanged; other years map to the year of that window with the same last two digits (proved)"
  },
  {
   "property": "C23",
   "status": "proved",
   "theorems": [
    "Gempak.C23_grid_word",
    "Gempak.C23_grid_word_same",
    "Gempak.C23_fits"
   ],
   "note": ""
  },
  {
   "property": "C24",
   "status": "proved",
   "theorems": [
    "Gempak.C24_ftime",
    "Gempak.C24_ftime_inj"
   ],
   "note": ""
  },
  {
   "property": "C25",
   "status": "partial",
   "theorems": [
    "Gempak.C25_valid_time_partial",
    "Gempak.C25_counterexample"
   ],
   "note": "first and second times, years 1969-2068; false for an explicit letter A, whose time of day is lost (proved)"
  },
  {
   "property": "C26",
   "status": "proved",
   "theorems": [
    "Gempak.C26_levels",
    "Gempak.C26_negative"
   ],
   "note": "negative levels are accepted but listed as none (proved)"
  },
  {
   "property": "C27",
   "status": "proved",
   "theorems": [
    "Gempak.C27_names"
   ],
   "note": ""
  },
  {
   "property": "C28",
   "status": "proved",
   "theorems": [
    "Gempak.C28_station_id"
   ],
   "note": ""
  },
  {
   "property": "C29",
   "status": "proved",
   "theorems": [
    "Gempak.C29_coordinates",
    "Gempak.C29_sounding"
   ],
   "note": "for any rounding of the product that is monotone and exact on integers"
  },
  {
   "property": "C30",
   "status": "partial",
   "theorems": [
    "Gempak.C30_decoded_partial",
    "Gempak.C30_no_bits",
    "Gempak.C31_zero_width"
   ],
   "note": "every record at any bit offset, any scale/offset; false for records without any bits (ZeroDivisionError) and for fields of no bits behind a full record (IndexError)"
  },
  {
   "property": "C31",
   "status": "partial",
   "theorems": [
    "Gempak.C31_short",
    "Gempak.C31_beyond",
    "Gempak.C31_zero_width"
   ],
   "note": "a partial trailing record raises and nothing beyond the length matters; false for a zero-width last field (IndexError, proved)"
  },
  {
   "property": "C32",
   "status": "proved",
   "theorems": [
    "Gempak.C32_values",
    "Gempak.C32_short",
    "Gempak.C32_file"
   ],
   "note": "widths up to 32 bits, exact values (single-precision rounding of each sum is not modelled); too few words give IndexError"
  },
  {
   "property": "C33",
   "status": "proved",
   "theorems": [
    "Gempak.C33_ishift",
    "Gempak.C33_far"
   ],
   "note": ""
  },
  {
   "property": "C34",
   "status": "partial",
   "theorems": [
    "Gempak.C34_selection_partial",
    "Gempak.C34_listing",
    "Gempak.C34_empty",
    "Gempak.C34_second_time",
    "Gempak.C34_written"
   ],
   "note": "For every file that can be read at all, and so for every written file with grids, each query returns exactly the grids of the listing matching all given criteria, in listing order, and raises KeyError when none match. Missing: asking for the earliest or latest second time raises TypeError when some grid has no second time, and ValueError on an empty file; both are proved."
  },
  {
   "property": "C35",
   "status": "partial",
   "theorems": [
    "Gempak.C35_selection_partial",
    "Gempak.C35_written",
    "Gempak.C35_listing",
    "Gempak.C35_empty",
    "Gempak.C35_case"
   ],
   "note": "any merged file whose soundings are all readable, and every written file; lists of states and countries are compared without upper-casing (C35_case) and 'first'/'last' on an empty file raises ValueError (C35_empty)"
  },
  {
   "property": "C36",
   "status": "partial",
   "theorems": [
    "Gempak.C36_selection_partial",
    "Gempak.C36_written",
    "Gempak.C36_listing",
    "Gempak.C36_empty"
   ],
   "note": "any file whose reports are all readable, and every written file; 'first'/'last' on an empty file raises ValueError instead of KeyError (C36_empty)"
  },
  {
   "property": "C37",
   "status": "proved",
   "theorems": [
    "Gempak.C37_by_id",
    "Gempak.C37_by_number",
    "Gempak.C37_by_box",
    "Gempak.C37_by_state",
    "Gempak.C37_by_country",
    "Gempak.C37_succeeds",
    "Gempak.C37_criteria"
   ],
   "note": ""
  },
  {
   "property": "C38",
   "status": "partial",
   "theorems": [
    "Gempak.C38_reports",
    "Gempak.C38_special_time",
    "Gempak.C38_split_partial",
    "Gempak.C38_text_dropped",
    "Gempak.C38_dropped"
   ],
   "note": "false for cells whose texts are empty or only hyphens: report and values are dropped (exact condition proved)"
  },
  {
   "property": "C39",
   "status": "partial",
   "theorems": [
    "Gempak.C39_trailing_partial",
    "Gempak.C39_counterexample"
   ],
   "note": "holds for trailing unused headers (the only ones the writers produce); false in general: only the flag word of an unused header is skipped (counterexample proved)"
  },
  {
   "property": "C40",
   "status": "partial",
   "theorems": [
    "Gempak.C40_open",
    "Gempak.C40_headers",
    "Gempak.C40_record_partial",
    "Gempak.C40_data_lost"
   ],
   "note": "opening, headers and records; false for the pointer table: a file cut before it opens and every cell looks empty (proved)"
  },
  {
   "property": "C41",
   "status": "partial",
   "theorems": [
    "Gempak.C41_cursor_partial",
    "Gempak.C41_split_read",
    "Gempak.C41_pure_queries",
    "Gempak.C41_truncate_zero",
    "Gempak.C41_short_int",
    "Gempak.C41_negative",
    "Gempak.C41_negative_split"
   ],
   "note": "The full claim is false: truncate(0) empties the buffer (C41_truncate_zero), and negative positions, which skip and jump_to accept, read from the end of the buffer, where two reads differ from one (C41_negative, C41_negative_split). Any history of calls at non-negative positions without truncate(0) behaves as a byte string with a cursor (C41_cursor_partial)"
  },
  {
   "property": "C42",
   "status": "proved",
   "theorems": [
    "Gempak.C42_ordered_set",
    "Gempak.C42_eq",
    "Gempak.C42_from_iterable"
   ],
   "note": ""
  },
  {
   "property": "C43",
   "status": "proved",
   "theorems": [
    "Gempak.C43_named_round_trip",
    "Gempak.C43_pack_rejects"
   ],
   "note": ""
  },
  {
   "property": "C44",
   "status": "proved",
   "theorems": [
    "Gempak.C44_words"
   ],
   "note": ""
  },
  {
   "property": "C45",
   "status": "proved",
   "theorems": [
    "Gempak.C45_between",
    "Gempak.C45_missing",
    "Gempak.C45_raises",
    "Gempak.C45_key",
    "Gempak.C45_pressure"
   ],
   "note": "exact real numbers; the pressure entry of the result is not the requested level but the interpolated one, always different (C45_pressure)"
  },
  {
   "property": "C46",
   "status": "proved",
   "theorems": [
    "Gempak.C46_direction"
   ],
   "note": "exact real numbers"
  },
  {
   "property": "C47",
   "status": "proved",
   "theorems": [
    "Gempak.C47_vapour",
    "Gempak.C47_mixing",
    "Gempak.C47_virtual",
    "Gempak.C47_scale",
    "Gempak.C47_height"
   ],
   "note": "exact real numbers"
  },
  {
   "property": "C48",
   "status": "proved",
   "theorems": [
    "Gempak.C48_mixing",
    "Gempak.C48_virtual",
    "Gempak.C48_code"
   ],
   "note": "exact real numbers"
  },
  {
   "property": "C49",
   "status": "proved",
   "theorems": [
    "Gempak.C49_filled",
    "Gempak.C49_between"
   ],
   "note": "exact real numbers"
  },
  {
   "property": "C50",
   "status": "proved",
   "theorems": [
    "Gempak.C50_kept",
    "Gempak.C50_raises",
    "Gempak.C50_succeeds",
    "Gempak.C50_temperature"
   ],
   "note": "exact real numbers for the filled values; ValueError is possible when pressures around a gap are out of order"
  },
  {
   "property": "C51",
   "status": "partial",
   "theorems": [
    "Gempak.C51_heights_partial",
    "Gempak.C51_moist",
    "Gempak.C51_endless",
    "Gempak.C51_unbound",
    "Gempak.C51_mark"
   ],
   "note": "interp_moist_height always ends. interp_logp_height ends (and fills along the log-pressure line) when pressures are positive, falling and at most 2000 hPa; false in general: it can run forever (C51_endless) or use an unassigned variable (C51_unbound)"
  },
  {
   "property": "C52",
   "status": "partial",
   "theorems": [
    "Gempak.C52_columns_partial",
    "Gempak.C52_none",
    "Gempak.C52_counterexample"
   ],
   "note": "Whole merge function modelled. Equal column lengths are proved whenever the TTAA and TTCC parts, if present, carry the six usual columns. Without that the property fails: a TTCC part without winds gives unequal columns (counterexample)."
  },
  {
   "property": "C53",
   "status": "proved",
   "theorems": [
    "Gempak.C53_record_size",
    "Gempak.C53_file_header",
    "Gempak.C53_encodes",
    "Gempak.C53_group_type_counterexample"
   ],
   "note": "Every element reachable by constructor and setter calls; C53_encodes says when encode succeeds (group types above 255 are accepted but do not encode)."
  },
  {
   "property": "C54",
   "status": "partial",
   "theorems": [
    "Gempak.C54_file_partial",
    "Gempak.C54_unreadable",
    "Gempak.C67_counterexample"
   ],
   "note": "All element lists whose special texts are whole (Spec.Whole): as many bytes are written as the text has characters, so texts beyond ASCII are cut; exactly when the cut is inside a character the file cannot be read (C54_unreadable). Symbol codes 0 to 2^24 - 1, which the setters ensure."
  },
  {
   "property": "C55",
   "status": "partial",
   "theorems": [
    "Gempak.C55_fields_partial",
    "Gempak.C55_coordinates_partial",
    "Gempak.C55_text_size",
    "Gempak.C55_closed_counterexample",
    "Gempak.C55_reversed_counterexample"
   ],
   "note": "Every field of every kind as given by Spec.dElem; false for coordinates of closed lines (a closing point is added) and of special lines with direction -1 (reversed)."
  },
  {
   "property": "C56",
   "status": "proved",
   "theorems": [
    "Gempak.C56_ranges",
    "Gempak.C56_file_header",
    "Gempak.C56_header",
    "Gempak.C56_setter",
    "Gempak.C56_any_setter",
    "Gempak.C56_foreign",
    "Gempak.C56_failed",
    "Gempak.C56_points"
   ],
   "note": "Ranges for every class (Spec.ElemOk) after any history of calls; C56_any_setter gives the exact accepted values and the effect of each setter of each class; symbol width, size and code are unchecked by the constructor. Setters take integers."
  },
  {
   "property": "C57",
   "status": "proved",
   "theorems": [
    "Gempak.C57_front"
   ],
   "note": "Refinement of an abstract digit machine, all histories."
  },
  {
   "property": "C58",
   "status": "proved",
   "theorems": [
    "Gempak.C58_front",
    "Gempak.C58_special_line",
    "Gempak.C58_direction"
   ],
   "note": ""
  },
  {
   "property": "C59",
   "status": "partial",
   "theorems": [
    "Gempak.C59_anywhere_partial",
    "Gempak.C59_stops_partial",
    "Gempak.C59_short_tail"
   ],
   "note": "Proved for every place in every file where at least 40 bytes remain; fewer than 40 bytes after the last record raise struct.error (C59_short_tail)."
  },
  {
   "property": "C60",
   "status": "partial",
   "theorems": [
    "Gempak.C60_ends_partial",
    "Gempak.C60_counterexample",
    "Gempak.C60_list_endless",
    "Gempak.C60_track_endless"
   ],
   "note": "Ends after at most as many turns as bytes when each accepted record has positive size, at most 500 list items and 50 track points; each of the three conditions is needed: a 40-byte file whose record states the size 0 is decoded forever, and so are files of two records of the sizes they state, the second a list of 1300 items (C60_list_endless) or a track of 100 points (C60_track_endless)."
  },
  {
   "property": "C61",
   "status": "proved",
   "theorems": [
    "Gempak.C61_groups",
    "Gempak.C61_listed"
   ],
   "note": ""
  },
  {
   "property": "C62",
   "status": "proved",
   "theorems": [
    "Gempak.C62_filter"
   ],
   "note": ""
  },
  {
   "property": "C63",
   "status": "proved",
   "theorems": [
    "Gempak.C63_contains",
    "Gempak.C63_attained",
    "Gempak.C63_empty",
    "Gempak.C63_element"
   ],
   "note": "Exact rationals, no NaN."
  },
  {
   "property": "C64",
   "status": "partial",
   "theorems": [
    "Gempak.C64_close_partial",
    "Gempak.C64_lists",
    "Gempak.C64_flip",
    "Gempak.C64_mixed",
    "Gempak.C64_length"
   ],
   "note": "Closing holds for NumPy arrays; for Python lists close_coordinates always raises (C64_lists)."
  },
  {
   "property": "C65",
   "status": "partial",
   "theorems": [
    "Gempak.C65_strip_null_partial",
    "Gempak.C65_text_partial",
    "Gempak.C65_no_null",
    "Gempak.C65_counterexample",
    "Gempak.C65_strict"
   ],
   "note": "Without a NUL the last character is dropped (C65_counterexample)."
  },
  {
   "property": "C66",
   "status": "partial",
   "theorems": [
    "Gempak.C66_getters_partial",
    "Gempak.C66_has",
    "Gempak.C66_text",
    "Gempak.C66_met",
    "Gempak.C66_met_counterexample",
    "Gempak.C66_text_counterexample"
   ],
   "note": "get_met depends on has_sigmet and get_text returns special texts too."
  },
  {
   "property": "C67",
   "status": "partial",
   "theorems": [
    "Gempak.C67_text_partial",
    "Gempak.C67_exact",
    "Gempak.C54_unreadable",
    "Gempak.C67_counterexample",
    "Gempak.C67_cut_counterexample",
    "Gempak.C67_dollar_counterexample"
   ],
   "note": "ASCII texts without NUL and $$ come back; false beyond that. C67_exact says what comes back of every text, C54_unreadable when nothing can be read."
  },
  {
   "property": "C68",
   "status": "proved",
   "theorems": [
    "Gempak.C68_swap",
    "Gempak.C68_negative"
   ],
   "note": "For 0 <= x < 2^32; negative arguments raise OverflowError."
  },
  {
   "property": "C69",
   "status": "partial",
   "theorems": [
    "Gempak.C69_refused_partial",
    "Gempak.C69_stuck",
    "Gempak.C69_counterexample",
    "Gempak.C69_grid_refused_partial",
    "Gempak.C69_grid_stuck",
    "Gempak.C69_grid_counterexample"
   ],
   "note": "calls refused for their arguments change nothing; false for calls exceeding the header limit and for grids clashing in the presence of a second time (proved)"
  },
  {
   "property": "C70",
   "status": "partial",
   "theorems": [
    "Gempak.C70_advances_partial",
    "Gempak.C70_counterexample",
    "Gempak.C70_list_back",
    "Gempak.C70_track_back"
   ],
   "note": "For positive record sizes, at most 500 list items and at most 50 track points; each condition is needed: false for size 0 (C70_counterexample), for lists of more than 500 items (C70_list_back) and tracks of more than 50 points (C70_track_back) that reach beyond the end of the file."
  },
  {
   "property": "C71",
   "status": "proved",
   "theorems": [
    "Gempak.C51_moist"
   ],
   "note": "exact field arithmetic"
  },
  {
   "property": "C72",
   "status": "proved",
   "theorems": [
    "Gempak.C72_ends",
    "Gempak.C72_windless"
   ],
   "note": "all parts, all missing values; a part cannot have a column twice (it is a dict). The number of rounds is bounded for each sounding, there is no stated bound"
  },
  {
   "property": "C73",
   "status": "partial",
   "theorems": [
    "Gempak.C96_upper",
    "Gempak.C73_ignored",
    "Gempak.C73_lost",
    "Gempak.C73_dropped"
   ],
   "note": "True when the lower part gives a wind by height above the surface (C96_upper); false otherwise: the sounding merges as if the upper winds on heights were not there, proved for all soundings; a concrete loss is exhibited."
  },
  {
   "property": "C74",
   "status": "partial",
   "theorems": [
    "Gempak.C74_fails"
   ],
   "note": "The property is false for every such record: decoding raises. No positive part is claimed."
  },
  {
   "property": "C75",
   "status": "proved",
   "theorems": [
    "Gempak.C75_sorted",
    "Gempak.C75_written"
   ],
   "note": "C75_sorted for any merged file whose missing value is a number; C75_written for every history of add_sounding calls with levels (soundings without levels make snxarray raise, C15_no_levels)."
  },
  {
   "property": "C76",
   "status": "proved",
   "theorems": [
    "Gempak.C76_datasets",
    "Gempak.C76_made"
   ],
   "note": "Numbers are elements of an ordered field. C76_datasets describes every successful result; C76_made: with six columns in TTAA and TTCC no merged profile fails to become a dataset."
  },
  {
   "property": "C77",
   "status": "partial",
   "theorems": [
    "Gempak.C77_first_part",
    "Gempak.C77_counterexample"
   ],
   "note": "False: exactly the soundings whose first part has data are listed; a file is exhibited whose only sounding cannot be had."
  },
  {
   "property": "C78",
   "status": "proved",
   "theorems": [
    "Gempak.C78_navigation",
    "Gempak.C78_contents"
   ],
   "note": "pyproj is any pair of maps with any description; coordinates are rationals, fewer than 2^24 columns and rows; C78_contents under the conditions of C16."
  },
  {
   "property": "C79",
   "status": "partial",
   "theorems": [
    "Gempak.C79_crs_partial",
    "Gempak.C79_mercator",
    "Gempak.C79_dropped",
    "Gempak.C79_rotation"
   ],
   "note": "Proved for eight kinds of projections (Spec.ProjOf); false for Mercator (latitude of true scale comes back as latitude of origin), for the latitude of origin of conic and the standard parallel of polar stereographic projections (dropped) and for the rotation (ignored)."
  },
  {
   "property": "C80",
   "status": "partial",
   "theorems": [
    "Gempak.C80_accepted_partial",
    "Gempak.C80_transverse",
    "Gempak.C80_equal_area",
    "Gempak.C80_tangent",
    "Gempak.C80_exponent"
   ],
   "note": "Accepted: the projections of Spec.ProjOf. False for transverse Mercator, for Lambert azimuthal equal area with a CF name, for conic projections with one standard parallel; numerals with an exponent are misread."
  },
  {
   "property": "C81",
   "status": "proved",
   "theorems": [
    "Gempak.C81_axes",
    "Gempak.C81_close"
   ],
   "note": "Exact arithmetic in linspace; the final rounding of the coordinates to single precision and the geographic coordinates computed from them are not modelled."
  },
  {
   "property": "C82",
   "status": "partial",
   "theorems": [
    "Gempak.C82_saves_partial",
    "Gempak.C82_small"
   ],
   "note": "Holds from three columns and rows on; with fewer than three of either no file can be saved (C82_small)."
  },
  {
   "property": "C83",
   "status": "proved",
   "theorems": [
    "Gempak.C83_reports",
    "Gempak.C83_listed",
    "Gempak.C83_packed"
   ],
   "note": "For files whose parameter names differ, also in lower case, and are none of the reader's own keys; counts and header lengths in the file are not negative. C83_packed gives packed numbers bit by bit, for widths of 1 to 32."
  },
  {
   "property": "C84",
   "status": "proved",
   "theorems": [
    "Gempak.C84_soundings",
    "Gempak.C84_listed",
    "Gempak.C84_packed"
   ],
   "note": "The same conditions on names and counts. Levels are described before they are sorted (C75)."
  },
  {
   "property": "C85",
   "status": "partial",
   "theorems": [
    "Gempak.C85_records_partial",
    "Gempak.C85_first_partial",
    "Gempak.C85_sigmet_status"
   ],
   "note": "Everything but the status of SIGMETs, which is not kept: the attribute holds the area (C85_sigmet_status). Spec.Records gives the records of a file by byte places (tables generated from /repo, independent of the model's field lists). From a record whose counts exceed its tables or whose stated size is too small (not Spec.Regular) nothing is claimed. Rounding of single precision numbers and the parsing of tropical cyclone advisories are parameters (VgEnv)."
  },
  {
   "property": "C86",
   "status": "partial",
   "theorems": [
    "Gempak.C86_advisory_partial",
    "Gempak.C86_value",
    "Gempak.C86_value_end",
    "Gempak.C86_no_value",
    "Gempak.C86_breaks",
    "Gempak.C86_file",
    "Gempak.C86_no_breaks",
    "Gempak.C86_unread",
    "Gempak.C86_lost",
    "Gempak.C86_counterexample"
   ],
   "note": "All attributes are right, but there is one element for each watch and warning (equal ones), none where there is no watch or warning. An advisory with a watch or warning that states no break points cannot be read at all (C86_no_breaks), and then neither can its file (C86_unread, for the first record). float() of a text is a parameter."
  },
  {
   "property": "C87",
   "status": "partial",
   "theorems": [
    "Gempak.C87_mandatory_partial",
    "Gempak.C87_upper_partial",
    "Gempak.C87_height_lost",
    "Gempak.C87_wind_lost"
   ],
   "note": "For mandatory parts with the usual six columns. The height is lost when a tropopause is at the same pressure (C87_height_lost); the wind can be replaced when the lower part has winds by height (C87_wind_lost); everything else is proved."
  },
  {
   "property": "C88",
   "status": "proved",
   "theorems": [
    "Gempak.C88_temperature",
    "Gempak.C88_tropopause",
    "Gempak.C88_wind",
    "Gempak.C88_maximum_wind"
   ],
   "note": "For mandatory parts with the usual six columns and a surface pressure given by the report (Spec.GoodReport); winds when the lower part has none by height. Pressures are taken without sign, as the code does."
  },
  {
   "property": "C89",
   "status": "partial",
   "theorems": [
    "Gempak.C89_json_partial",
    "Gempak.C89_jet",
    "Gempak.C89_cls"
   ],
   "note": "Holds for all files without jets. With a jet element to_json raises TypeError (C89_jet); so it does whenever the caller gives an encoder class (C89_cls). JSON is modelled as a value, not as text; the rounding to two decimals is a parameter; the only keyword modelled is cls."
  },
  {
   "property": "C90",
   "status": "partial",
   "theorems": [
    "Gempak.C90_accepts",
    "Gempak.C90_keeps",
    "Gempak.C90_unchecked",
    "Gempak.C90_read_back_partial"
   ],
   "note": "C90_accepts and C90_keeps are for all calls of the right types. False for symbols and markers, whose constructors check neither symbol code, width nor size (C90_unchecked). C90_read_back_partial is for elements within reach of C55."
  },
  {
   "property": "C91",
   "status": "partial",
   "theorems": [
    "Gempak.C91_winds",
    "Gempak.C91_dew_points",
    "Gempak.C91_erased",
    "Gempak.C91_crossed"
   ],
   "note": "Winds for all soundings with falling pressures; dew points when no temperature between the first and last level is missing. False otherwise: the loop for temperatures writes dew points too, across 100 hPa (C91_crossed) and over measured ones (C91_erased). Values below the missing mark are excluded; real arithmetic."
  },
  {
   "property": "C92",
   "status": "proved",
   "theorems": [
    "Gempak.C92_above"
   ],
   "note": "For the usual mark -9999, pressures up to 2000 hPa and a temperature at the highest level with height; real arithmetic."
  },
  {
   "property": "C93",
   "status": "proved",
   "theorems": [
    "Gempak.C93_moist",
    "Gempak.C93_between"
   ],
   "note": "For the usual mark -9999; real arithmetic."
  },
  {
   "property": "C94",
   "status": "proved",
   "theorems": [
    "Gempak.C94_parts",
    "Gempak.C94_numbers",
    "Gempak.C94_packed",
    "Gempak.C94_packed_values"
   ],
   "note": "For files whose places are within reach (Spec.Addressable), with distinct part names and distinct parameter names within a part."
  },
  {
   "property": "C95",
   "status": "partial",
   "theorems": [
    "Gempak.C95_below_partial",
    "Gempak.C95_lost",
    "Gempak.C95_unbound"
   ],
   "note": "Proved when at least one of the parts of significant winds is absent, empty or by height; false when both are on pressure: a level is put in front of the surface and others are lost (C95_lost), or UnboundLocalError is raised (C95_unbound)."
  },
  {
   "property": "C96",
   "status": "proved",
   "theorems": [
    "Gempak.C96_lower",
    "Gempak.C96_upper",
    "Gempak.C96_no_surface"
   ],
   "note": "Levels are compared with those merged from the same report with the lower winds cut to that of the surface; TTAA and TTCC with the six usual columns."
  },
  {
   "property": "C97",
   "status": "proved",
   "theorems": [
    "Gempak.Grib.C97_rounding",
    "Gempak.Grib.C97_loss",
    "Gempak.Grib.C97_missing",
    "Gempak.Grib.C97_packs",
    "Gempak.Grib.C97_half_step_lost",
    "Gempak.Grib.C97_one_word"
   ],
   "note": "binary floating point with unbounded exponents (no overflow, no subnormal numbers); every precision of the grid, every width"
  },
  {
   "property": "C98",
   "status": "partial",
   "theorems": [
    "Gempak.C98_sounding",
    "Gempak.C98_sounding_refused",
    "Gempak.C98_grid",
    "Gempak.C98_surface",
    "Gempak.C98_surface_error",
    "Gempak.C98_second"
   ],
   "note": "proved for soundings and for first times of grids; false for surface files, which never accept a text (C98_surface, C98_surface_error), and for second times of grids beside a datetime (C98_second). strptime, int and upper are those of the host"
  },
  {
   "property": "C99",
   "status": "partial",
   "theorems": [
    "Gempak.C99_last",
    "Gempak.C99_kept_partial",
    "Gempak.C99_caller",
    "Gempak.C99_counterexample"
   ],
   "note": "false: the file refers to the arrays, so it holds their last values (C99_last, for all programs; C99_counterexample), and not-a-number is replaced in the array of the caller (C99_caller). C99_kept_partial is for programs that change no array after adding it, which is what all other theorems on grid files assume"
  }
 ]
}