# Formal model of gempakio: design

Source: `/repo` (nawendt/gempakio, python), read as text.  Prover: Lean 4.33.0, Mathlib modules imported one at a time.

## Trusted base

* Lean's kernel, and the axioms `propext`, `Classical.choice`, `Quot.sound`.  Every theorem named in `MANIFEST.json` depends on a
  subset of these three and on nothing else.  No axiom is added, no `sorry`, `native_decide`, `bv_decide`, `implemented_by`
  or `unsafe`.  `decide +kernel` is used for concrete witnesses and for finite tables that are complete.
* The reading of the Python code: every model definition cites the file and lines it renders.  Nothing here runs the Python.
* CPython / NumPy semantics assumed by the model: `struct.pack/unpack` of `i`, `f`, `B`, `b`, `Ns`, `x`; slicing; `int.from_bytes`;
  floor division and modulo; `sorted` is a stable sort; `dict` preserves first-insertion order; NumPy >= 2 promotion (`np.where` with
  an int32 array and a Python int stays int32), int32 shifts wrap, `sum` of int32 is done in int64.
* The host is little-endian where the code asks (`sys.byteorder`); the DM reader is proved for both byte orders.

## What is modelled

| source | model | remarks |
|--------|-------|---------|
| `common.py:55-133` | `Model/Base`, `Model/Tools`, `Model/Station` | enumerations, word/position |
| `tools.py` (all of `NamedStruct`, `IOBuffer`, `OrderedSet`) | `Model/Struct`, `Model/Tools` | `fromfile`, `unpack_file`, `__repr__` not |
| `encode/gempak.py:38-141` `pack_grib` | `Model/Grib` (words), `Model/GribValue` (values), `Model/GribFloat` (values in floating point) | no overflow, no subnormal numbers |
| `encode/gempak.py:144-526` stream, `DataManagementFile` | `Model/DMWrite` | the file object is its bytes |
| `encode/gempak.py:529-1083` `GridFile` | `Model/GridWrite`, `Model/GridNav`, `Model/GridAlias` | pyproj is a description (CF values, text form, operation) and two maps, both arbitrary |
| `encode/gempak.py:1086-1344` `SoundingFile` | `Model/Station` | complete |
| `encode/gempak.py:1347-1605` `SurfaceFile` | `Model/Station` | complete |
| `decode/gempak.py:126-209` `_bbox_filter`, `_unpack_grib` | `Model/StationRead`, `Model/Grib`, `Model/GribValue` | |
| `decode/gempak.py:212-610` `GempakFile` | `Model/DMRead`, `Model/Calendar`, `Model/RealPack` | |
| `decode/gempak.py:613-1150` `GempakGrid` | `Model/GridRead`, `Model/GridNav` | the coordinate system is the dictionary handed to pyproj; coordinates without their rounding to single precision, and no geographic coordinates; the xarray result is its data and attributes that select or identify it |
| `decode/gempak.py:1153-1368, 2011-2180` `GempakSounding` reading and selection | `Model/StationRead`, `Model/Sounding`, `Model/SoundingData` | merged and unmerged files; datasets are records, `xarray` is trusted to sort and mask as modelled |
| `decode/gempak.py:1369-2009` `_merge_sounding` | `Model/Merge` | on columns over an ordered field, division by zero gives zero |
| `decode/gempak.py:2183-2892` `GempakSurface` | `Model/StationRead`, `Model/Surface`, `Model/Report` | the regular expression finding times in reports is modelled by its language |
| `decode/gempak.py:1011-1046, 2053-2082, 2682-2711, 2798-2826` forms of selection arguments | `Model/SelArgs` | `strptime` and `int` of a text are parameters |
| `decode/gempak.py:311-467, 616-680, 806-954, 956-1367, 2053-2180, 2186-2559, 2635-2892` as operations on the buffer (`tools.py:71-184`) | `Model/Cursor` | state kept when an exception is raised; of a value read and dropped only the move |
| `gemcalc.py` (all functions) | `Model/Calc` | exact reals; `while` loops with fuel, and termination is a theorem |
| `encode/vgf.py` (all element classes and `VGFile`) | `Model/VgfEnc` | setters on integers; single-precision words as 32-bit patterns |
| `decode/vgf.py:2878-3267, 3270-5182` `VectorGraphicFile` decoding | `Model/VgfDec`, `Model/VgfStructs` | rounding functions are parameters; the text of tropical cyclone advisories is parsed by a parameter (`env.tca`), for which `Model/VgfTca` gives `_decode_tca` with `float()` as a parameter |
| `decode/vgf.py:2865-2872, 3244-3258` `NumpyEncoder`, `to_json` | `Model/VgfJson` | JSON as a value, not as text; rounding to two decimals is a parameter; of the keyword arguments only `cls` |
| `decode/vgf.py` queries (`filter_elements`, `get_*`, `has_*`, `bounds`), coordinate and string helpers | `Model/VgfQuery` | bounds over exact rationals, no NaN |

Not modelled: `__repr__`s, the text of JSON, logging, docstrings, opening files from the OS or a URL, pyproj, xarray and pandas
wrapping of results, memory limits.  Arrays of the caller are modelled for grid files (`Model/GridAlias`, C99); the other files copy their data.

## Agreement of the model with the sample files

Proofs say nothing about a model that misreads the code.  So the model itself was evaluated (Lean's evaluator; no Python of the project is
run) on the sample files of `/repo/tests/data`, and the results compared with the values that come with them: GEMPAK's own output
(`.csv`, `.npz`) and the values written in `/repo/tests/test_vgf.py`, read as text.  This is a test, not a proof; no theorem depends on it.

| files | model run | compared | result |
|-------|-----------|----------|--------|
| `none`, `dec`, `grib`, `diff` `.grd` | `openGrid`, `gdxarray` | 45 x 53 values each | relative difference at most 1e-6 |
| `little_endian.grd` | the same | 113 x 151 values | equal |
| `surface_temp*.npz`, widths 4 to 31 | `scaleExp`, `quantF 24`, `packWords`, `unpackWords`, `dequantF` | number of words, words and values of the first 2000 points | equal |
| `msn_hrrr_mrg.snd` | `openSounding`, `datasets` | 50 levels, 16 columns | within 0.011 |
| `top_sigw_hght_unmrg`, `waml_sigw_pres_unmrg`, `dl10548_sigw_pres_unmrg_man_bgl`, `nzwp_no_ttcc` `.snd` | `openSounding`, `unmergedDatasets` (over the rationals, with the `log` and `exp` of the machine) | 125, 92, 119 and 90 merged levels, 6 columns | within 0.011 |
| `climate.sfc`, `lwc_std_sfc.sfc` | `openSurface`, `sfjson` | 25 reports, 750 values | equal to 1e-6 |
| `msn_std_sfc.sfc` | `nearestTime` | time and text of the special report | equal |
| all 23 `.vgf` files | `openVgf`, `parseTca` | every value in `test_vgf.py`, among them all attributes of 16 elements of the larger kinds | equal |

The programs are in `validation/` (Lean files under the name `.lean.txt`, to be run with `lake env lean` in `lean/`; they write to
`/tmp/val`, where the Python scripts compare).

## Modelling conventions

* Bytes are `List UInt8`.  Python exceptions are values `Except PyErr α`.
* 32-bit floats are opaque 32-bit patterns (`BitVec 32`); conversion `float64 -> float32` is a parameter where it matters.
  Quantisation (`pack_grib`/`_unpack_grib` value level) is stated over exact rationals in C04 and C05, and
  with rounding of every operation to binary floating point in C97 (`Model/GribFloat`; exponents without bound).
* Thermodynamic formulas are stated over the reals with `Real.log`, `Real.exp` for `np.log`, `np.exp`.
* Text is `List Char` with an explicit UTF-8 encoder; `str.upper`/`strip` are modelled on ASCII.
* The data writer is modelled on a byte stream with a position, overwriting and zero-extending like `io.BytesIO`.
* `while` loops whose end is in doubt carry a fuel argument and a separate outcome for running out of it; a theorem about their end
  says for which fuel the outcome cannot occur.
* Theorems named by a property are in `Verif/Props`, specifications they are stated with in `Verif/Spec` or as `Spec.` definitions
  beside them, helper lemmas in `Verif/Proof`.

## Plan per property

| id | model | proof |
|----|-------|-------|
| C01-C03 | `pack_grib` word assembly and `_unpack_grib` index/shift arithmetic on `List`/`Nat` | arithmetic of the bit string seen as one big number; round trip follows from two refinements to that spec |
| C04-C06 | value level of pack/unpack over the rationals, scale search as a fuel-free well-founded loop | inequalities; exact characterisation of the chosen exponent; counterexample for the flag collision |
| C07, C08 | degenerate branches | case analysis, witness for the single-word failure |
| C09 | `_set_pointers`, `_dmword` | `omega` over block rounding |
| C10-C13 | stream model, all `_write_*` functions, `to_gempak` | "holds at" predicate preserved by disjoint writes |
| C14-C18 | add functions as state transitions, writer, reader | induction over history; refinement to "last write wins" finite map |
| C19, C69 | add functions with their guards | invariant by induction; witness for state left behind by failing adds |
| C20, C21, C40 | reader with byte-order flag over buffers | symmetric decoding lemma; header check; prefix lemma |
| C22-C26 | header word encoders and decoders (decimal layouts) | arithmetic on digits |
| C27, C28 | identifiers and coordinates | list lemmas; truncation bounds |
| C30, C31, C33 | `_unpack_real`, `_fortran_ishift` over `Int`/`BitVec` | bit-level refinement to a field-of-a-big-number spec |
| C32 | DIFF branch of `_unpack_grid` | refinement to running sums |
| C34-C37 | selection functions over lists of records with a table of criteria | membership characterisation |
| C38 | `_process_report_text` with a tokenised text | case analysis; witness for the dropped report |
| C39 | header scan of the reader | witness for misalignment and the partial positive statement |
| C41-C44 | `IOBuffer`, `OrderedSet`, `NamedStruct`, word/position | induction over operation lists |
| C45-C51 | `gemcalc` over the reals | inequalities, loop invariants, witness for the non-terminating loop |
| C52 | `_merge_sounding` on abstract columns | invariant: all columns grow and shrink together |
| C53-C58 | encoder classes as records with setters | length lemmas, invariant over setter histories, round trip through the decoder |
| C59-C60, C70 | decoder main loop with fuel, header validation | induction; witness of the endless loop |
| C61-C66 | getters, bounds, coordinates, strings | list lemmas; witnesses for the deviations |
| C67 | special text | round trip for ASCII; witness for non-ASCII |
| C68 | `_swap32` | bit vectors |
| C71-C73 | `interp_moist_height`, `_merge_sounding` with fuel | loop invariants; independence of the dropped winds |
| C74 | decoder dispatch | the structure of these records cannot be built, for every file |
| C75 | `sortData` over columns | a permutation of the rows, sorted by the values of the levels; composed with C15 for written files |
| C76 | reading of parts, merging, datasets | induction over the selected soundings; each is matched with its listed site |
| C77 | listing of soundings | false: exact condition (pointer of the first part) and a concrete file |
| C78 | constructor, navigation and analysis block, reader | the builder's history is carried through a change of the navigation words; words are nearest numbers |
| C79, C80 | `_set_projection_params` and `_get_crs` over arbitrary descriptions of a projection | case analysis over a relation giving name and parameters of a projection; numerals of the text form by induction; negations for whole classes |
| C81 | `linspace` over rationals | convex combination: interior points are at most as wrong as the ends |
| C82 | spacing of the analysis block | false below three rows or columns (index out of range); saves otherwise |
| C83, C84 | reading of cells of several parts from any file | the words of a record are described by positions in the bytes (`Spec.fileWord`), the report by its parts (`Spec.AllParts`); induction over parts; packed numbers bit by bit from the words of the file (`Spec.packedValue`, also for C94), by C30 |
| C85 | vector graphic records of every kind from any bytes | every attribute's byte place is tabled (`Spec.VgfRecords`) from the source; readers are shown to keep their position in the record and to give the tabled values; induction over the records of the file (`Spec.Records`); the status of SIGMETs is not kept, which is proved |
| C86 | the text of tropical cyclone advisories | the text is a sequence of tags (`Spec.tagged`); each regular expression is shown to find the value of its tag; decimal numerals, splitting at bars and cutting into break points are inverted; for any text, the value found is the first that stands between its tag and the next (`C86_value`) and no break point is lost (`C86_breaks`) |
| C89 | `to_json` of vector graphic files | every attribute that a decoder of a record makes is of a kind JSON shows (`Yields`, a rule for each decoder), by induction over the records; jets are refused |
| C90 | constructors of elements | the table `Spec.Acceptable` of accepted arguments and `Spec.Made` of the new element, one lemma for each constructor; extended C56: table `Spec.Allowed` of values for each setter of each class |
| C91 | `interp_missing_data` over the reals | a recurrence for one recipe loop, then the line through the levels around a gap by induction along the gap |
| C92 | the upward extension of `interp_logp_height` | loop invariant against `Spec.hydrostatic` |
| C93 | `interp_moist_height` | closed form of the scan, scaling and storing loops with `Spec.thickness`, induction over measured heights |
| C94 | `_unpack_unmerged` and `_unpack_real` over the words of the file | refinement to `Spec.CellParts`; values by place of the word |
| C95 | the last step of `_merge_sounding` with the counters `size` and `bgl` | invariants: number of levels through the winds by height, place of insertion never before the surface; counterexamples by evaluation |
| C96 | the loop over winds by height of `_merge_sounding` | loop invariant on the counters (`ZInv`), induction over the winds of both parts; reports with and without the winds agree up to the loop |
| C97 | `pack_grib`, storage of reference and scale, `_unpack_grib` | rounding to `p` bits characterised as nearest; scaling by powers of two exact; triangle inequality |
| C98 | texts for times in `add_station`, `add_sounding`, `add_grid` | relation `Spec.Denotes`; calendar arithmetic over days before and after |
| C100 | the merge of C52 | the pressures after the mandatory temperatures are distinct (`ManTail`), so a wind finds its level; for winds that are ignored the two runs are compared step by step |
| C101 | the merge of C52 | the step before the tropopause asks for a second tropopause pressure; reports that raise |
| C102 | the builders of C19 | the checks of `_add_parameters` and `add_sounding` one by one; the limits themselves |
| C103 | write and read of surface files (C14) | two reports are alike iff the words written for them are; the calls kept differ in their keys |
| C104 | `nearest_time` on saved files (C36, C37) | for an area the identifiers found there are looked up in the whole file; two stations with one identifier |
| C105 | `int(x * 100)` and `x / 100` in floats of 53 bits (`centiF`, `degF`), C14 and C15 | error of rounding to nearest; negation by computing the digits for 64.10, 0.58, 0.57 |
| C106 | reports given to `add_station` again (`copyOf`), C14 twice | the call for a report is accepted and its entry has the same report; permutations; negation from C105 |
| C107 | write and read of sounding files (C15) | as C103 |
| C108 | the merge of C52 | an invariant on every level (`Row1`, `Row2`, `Row3`) kept by each step; levels without pressure keep missing heights until winds on heights are merged; what fills a gap lies on a line (`C50_lines`) |
| C109 | value level of packing (C04), in floats (C97) | values read are whole steps above the reference, and the exponent found for them is not smaller; with rounding, differences stay within 1/64 of a step |
| C110 | value level of packing (C04) | the exponent is bounded by the range, which includes the missing value |
| C111, C112 | `Model/SelArgs` | the forms of an argument are a relation to the values meant; the normalisation is a function of the values |
| C113 | `Model/SoundingData`, `Model/Merge` | C76 (selection), C94 (words of the records), C87 and C108 (merging) composed; rows of the dataset are a permutation of those merged |
| C114 | datasets given to `add_sounding` again (`snCopyOf`), C75 twice | the call for a dataset is accepted; its entry holds the sorted columns (`copyEntry_of`); sorting a sorted table keeps it when no two pressures agree (`rows_order`) |
| C115 | the reader of C85 | `Spec.CompleteFile` describes complete files by their bytes; for each kind of record the reading of its structures, tables and texts succeeds when the bytes are there (`rec_ok`, `texts_ok`, `works_*`), then induction over the records |
| C116 | `Model/GridNav` (constructor) | items of the mesh by row and column; the axes of a mesh are those it was made of when the maps are inverse to each other |
| C117 | `Model/Merge` | invariant of all merge steps: pressures are given and fall; a level is inserted where the search puts it, which is between its neighbours; interpolated pressures lie strictly between those of the levels around |
| C118 | the merge of C52 | an invariant on pressure, direction and speed of every level (`Wind1`, `Wind2`) kept by each step beside that of C108; what fills a gap is a fraction of the shorter arc and of the line (`C50_winds`) |
| C119 | the readers of C01, C33 and C34 as they are, on any bytes | specification by word numbers alone (`Spec.LabelAt`, `Spec.StructureAt`, `Spec.headWord`, `Spec.EntryAt`, `Spec.GridAt`); induction over counts and key lists. Conditions: pointers are positive, no unused header before an entry |
| C120 | the writer of C16 on what the reader lists | `Spec.copyReq` is the call, `Spec.Copyable` the listed grids that can be stored; what is listed for the entry is what was given (`copy_listed`), different grids are different entries (`copy_key`), then the round trip of C16 |
| C121 | the writers and readers of C14 to C16 | specification by lists of numbers compared from the left (`Spec.momentKey`, `Spec.Entry.Before`, `Spec.GEntry.rank`); the comparisons of tuples are shown to be those of the lists, so the sort of the headers sorts them |
| C122 | `Model/Cursor`: the readers again, as they move through the buffer | a call gives the result by byte positions from wherever the place is and whatever bookmarks follow the first (`Spec.Anywhere`); opening leaves such a state; induction over the calls |
| C123 | opening by another reader | the keys that each reader must find, for all bytes; the keys of saved files; the first header and its pointer are in use |
| C124 | values of grids in any file | words of the record by their numbers (length, header, kind of packing, data); inversion of every read; widths outside 1 to 31 (fields) or above 32 (differences) give whatever the code gives and are not described |
| C125 | copies of vector graphic files (`Spec.again`: the constructor call with the decoded attributes, `Spec.CopyOf`, `Spec.SameButBox`) | `C125_copy_partial`, `C125_grows`, `C125_full`, `C125_turned` (Props/VgfCopy.lean): the constructors (C90), the writer (C53) and the reader (C55) composed; false for closed lines and direction −1 |
| C126 | order of the humidity formulas and of thicknesses | `C126_…` (Props/CalcHumid.lean): real analysis of `Model/Calc.lean`; `C126_unit` shows that the documented unit of `mixing_ratio` is wrong |
| C127 | surface level of merged soundings | `C127_…` (Props/MergeSurface.lean, Props/MergeGround.lean for winds by height): `Spec.SurfaceTemp`, `Spec.GroundWind`, `Spec.SurfaceWind` say where pressure, temperature, dew point and wind come from; the row is followed through the merge with the lemmas of C87 |
| C128 | the writers of C14 to C16 | the headers after the sort are shown to be settled by the set of accepted keys, since the comparison of headers is a total order without ties (`col_antisymm`, `gcol_antisymm`), and the data by the last entry of every key; so the files to be written are equal, and with them the bytes |
| C129 | the queries of C34 to C36 and C76 | `Spec.Narrower` and `Spec.GNarrower` compare two queries criterion by criterion; what is made of each listed entry is shown not to depend on the other entries (`collect_parts`), so results are sublists; lists of values are taken apart (`site_pieces`, `grid_pieces`) |
| C130 | the same readers on two files | `Spec.HeadEnds`, `Spec.SameHead` and `Spec.SameRecord` say which bytes agree; opening and each cell are shown to read only those (`same_openGrid`, `same_parts`, `same_grid`), `C129` gives that results are put together from the cells asked for; `Spec.SharesFirst` and `Spec.RecordWithin` restate this for files that are cut off or continued |
| C131 | `openVgf` on joined bytes | `Spec.FullFile` is `Spec.CompleteFile` of C115 up to the last byte; each of the tables of `Spec/VgfRecords.lean` is shown to lie within the record (`content_more`), so records hold the same whatever follows them; C115 and C85 give what is read |
| C132 | `selectSites`, `selectGrids` and the calls that use them, on two queries | `Spec.SameQuery` and `Spec.GSameQuery` say which queries name the same values; each filter is shown to depend on the values named only |
| C133 | histories with and without a last call, saved and read back | `Spec.final` of a longer history is computed (`final_snoc`); C14 and C15 give what is read of each, `added_report_unique` and `sounding_unique` that an entry determines what is read of it |
| C99 | references of a grid file to arrays | the file seen with any values of its arrays is the file of the calls with these values, by induction over the program |
| C87, C88 | the merge of C52 | a relation between soundings before and after a step (`KeepsRows`): levels move but keep measured values; one lemma for each step; for significant levels an invariant over the levels merged before them (`TInv`, `WInv`) |

Where the code violates a property the negation is proved on a concrete witness, and the strongest true part carries the suffix
`_partial`; each such case is listed below.

## Deviations found

Each line is a behaviour of the code that contradicts a property of the list; the theorem proving it is named where there is one.

Packing
* The packed maximum can equal the missing flag, so a value comes back as missing (`Grib.C05_flag_collision`).
* The smallest value of a grid is stored as a 32-bit float: a constant grid of 16777217 reads back 16777216 (`Grib.C97_half_step_lost`).
* A value lost to the missing flag makes the next copy of the grid coarse: 0 becomes -15 (`Grib.C109_counterexample`).
* A missing point widens the range of a grid to -9999 and so coarsens all its values: 0.3 reads as 0.25 (`Grib.C110_coarse`,
  `Grib.C110_counterexample`).
* A tuple of times with a text in it raises `TypeError`; texts in a list of times of the caller are replaced by datetimes
  (`C111_tuple`, `C111_caller`).
* A station number given as text selects the stations whose numbers are its digits; `nearest_time` refuses station number zero
  (`C112_digits`, `C112_text`, `C112_zero`).
* A constant grid of at most 32 bits in all is written but read back as nothing (`Grib.C07_one_word`).
* `_unpack_real`: a zero-width field after the last word raises `IndexError` (`C31_zero_width`); parameters of zero total width
  raise `ZeroDivisionError` (`C30_no_bits`).
* DIFF packing with too few words raises `IndexError` (`C32_short`).

Data-management files
* The file type is not looked at: a sounding file opens as a surface file and lists its soundings as stations, and a surface file opens
  as a sounding file; nothing can be read of them then (`C123_sounding_as_surface`, `C123_surface_as_sounding`).
* A grid that is listed but has no record makes every call that reads it raise: its pointer is zero, and the kind of packing is then
  read from the title of the file (`C124_empty`).
* Scale and offset of parameters are exchanged between writer and reader (`C10_scale_offset_swapped`).
* A file is not padded to a whole block when the last cell of the table is empty (`C12_unpadded`, `C12_counterexample`).
* Unused headers are skipped by one word only (`C39_counterexample`).
* A file cut before its pointer table opens and every cell looks empty (`C40_data_lost`); a cut inside an integer word is read as a
  shorter integer (`C41_short_int`).
* `IOBuffer.truncate(0)` empties the buffer (`C41_truncate_zero`).
* `IOBuffer.skip` and `jump_to` accept negative positions; reads there count from the end of the buffer (`C41_negative`), and one read of
  two bytes at position -2 gives none where two reads of one byte give one (`C41_negative_split`).
* A wrong banner gives `TypeError` only for 28 or more bytes of valid UTF-8 (`C21_banner` gives the exact classification).

Writing stations, soundings and grids
* A call failing for capacity leaves the file changed, even unable to be saved (`C69_stuck`, `C69_counterexample`); a grid whose
  sort key ties with another one in the presence of a second time raises `TypeError` and leaves the file so that every later addition
  fails (`C69_grid_stuck`, `C69_grid_counterexample`).
* Soundings without levels are written but cannot be read (`C15_no_levels`); station identifiers beyond four characters are split
  into two headers and come back short (`C28_sounding_id`); beyond eight they are cut.
* Lead times whose number reaches 400000, such as 300 hours and 100 minutes of a forecast, are written but the file cannot be opened (`C16_too_long`, `C16_lead_unreadable`); shorter ones can become another type
  (`C16_lead_type`), and negative ones are listed some 40 days later (`C16_lead_negative`).
* Analyses added for hours before their time (`A-12`) are written but the file cannot be opened, with `TypeError` (`C16_too_early`, `C16_analysis_negative`); grids added with negative minutes (`F012-5`) are accepted by `add_grid` but the file can never be written (`C16_minutes_negative`, `C16_minutes_unwritable`).
* Grid times with an explicit letter `A` lose their time of day (`C25_counterexample`); lead minutes of 100 or more change the hours
  (`C16_lead`, `C16_lead_moved`); a name cut inside a character makes the whole file unreadable (`C16_undecodable`, `C16_multibyte`);
  every four characters of a parameter name lose their outer blanks, so two names can become one (`C16_blanks`);
  negative levels are written but listed as none (`C26_negative`).
* Dates outside 1969-2068 come back in another century (`C22_date_off`).
* Grids read without a level cannot be added to another file, grids alike but for the type replace one another, and forecasts become analyses when what `gdinfo` lists is given to `add_grid` (`C120_no_level`, `C120_alike`, `C120_copy_partial`).
* With years outside of 1969 to 2068 a saved file lists its times out of order (`C121_window`).

* Documented projections are refused: transverse Mercator (`C80_transverse`), Lambert azimuthal equal area with a CF name
  (`C80_equal_area`), Lambert conformal conic with one standard parallel (`C80_tangent`).  A parameter whose numeral has an exponent is
  read up to the exponent (`C80_exponent`).
* The latitude of true scale of a Mercator projection comes back as its latitude of origin (`C79_mercator`); the latitude of origin of a
  conic and the standard parallel of a polar stereographic projection are not written (`C79_dropped`); the rotation is ignored
  when reading (`C79_rotation`).
* `add_grid` keeps a reference to the array of the caller: an array used for several times gives the last values for all of them
  (`C99_counterexample`); points that are no numbers are replaced in the array of the caller (`C99_caller`).
* `add_station` refuses every time given as text, which it documents (`C98_surface`, `C98_surface_error`); `add_grid` refuses a second
  time given as text when the first one is a `datetime` (`C98_second`).
* A grid with fewer than three columns or rows cannot be saved (`C82_small`).

Reading
* `first` and `last` on an empty file raise `ValueError` rather than `KeyError` (`C34_empty`, `C35_empty`, `C36_empty`); for a second
  time they raise `TypeError` when a grid has none (`C34_second_time`).
* Lists of states and countries are compared without upper-casing (`C35_case`).
* A sounding of an unmerged file whose first part is absent is not listed and cannot be had (`C77_first_part`, `C77_counterexample`).
* Reports whose texts are empty or only hyphens are dropped with their values (`C38_dropped`, `C38_text_dropped`).

Sounding calculations and merging
* `interp_parameters` returns a pressure different from the requested level (`C45_pressure`).
* `mixing_ratio` is documented in kg/kg but returns g/kg (`C126_unit`).
* `interp_logp_height` can run forever (`C51_endless`) or use an unassigned variable (`C51_unbound`); `interp_moist_height` takes the
  missing mark for a height (`C51_mark`).
* Filling temperatures also writes dew points: over measured ones (`C91_erased`) and across 100 hPa (`C91_crossed`).
* A TTCC part without winds gives columns of unequal length (`C52_counterexample`); upper winds on heights are dropped unless lower
  ones above the surface exist (`C73_dropped`, `C73_ignored`, `C73_lost`).
* A tropopause at the pressure of a mandatory level or of the surface erases the height of the level (`C87_height_lost`, `C127_height_lost`); a wind by height replaces the
  measured wind of a mandatory level when the level below has none (`C87_wind_lost`): the test looks one level too low.
* Mandatory winds of the upper part are lost without mandatory temperatures in the lower part (`C100_upper_lost`).
* Without a surface pressure, a report with one tropopause raises `IndexError` (`C101_tropopause`), one with significant temperatures below
  the first mandatory level may raise `ValueError` (`C101_significant`): they are put before the surface level.
* A sounding of exactly 500 levels is refused (`C102_levels`); a parameter given in upper and lower case is taken or refused as the order is
  (`C102_twice`).
* Reports that differ only in seconds are both written and read back with one time (`C103_counterexample`).
* Grids whose values take 32 bits or less in all (3 by 3 points with 3 bits) are written only if they have one value, and then listed but not
  returned (`C16_small`, `C16_flat`).
* `nearest_time` for a state, country or box returns reports of stations elsewhere with the same identifier (`C104_counterexample`).
* A station at 64.10 degrees is read at 64.09, and every copy of a file may move stations by another hundredth (`C105_counterexample`, `C106_counterexample`).
* Soundings of stations whose identifiers agree in four characters cannot be told apart after reading (`C107_counterexample`).
* Rows of one pressure are returned in the reverse of the order in which they were written, so each copy of a file turns them round (`C114_equal_levels`, `C114_swapped`).
* `station_pressure` is the first level as written, not that of the dataset, and changes when the dataset is copied (`C114_pressure`).
* With significant winds on pressure in both parts, mandatory levels below the ground are put in front of the surface level and all but one
  are lost (`C95_lost`), or `UnboundLocalError` is raised (`C95_unbound`): `size` is not the number of levels there.
* `snxarray` with a state or country in lower case finds soundings, with a list of that state it raises `KeyError`: a wide query finds nothing although a narrower one does (`C129_state`).
* One damaged grid makes every `gdxarray` call that asks for it, among others, raise: the undamaged grids are not returned unless they are asked for alone (`C130_all_lost`).
* `nearest_time` returns the report of a station as often as the station is named (`C132_nearest_twice`).

Vector graphic files
* One byte after the last record makes the whole file unreadable: `StructError` is raised and none of the elements can be had (`C131_all_lost`).
* A list of more than 500 items that reaches beyond the end of the file moves the reader back, since the blank places after the items are skipped by a negative number of bytes; a file of two complete records is then decoded forever (`C60_list_endless`, `C70_list_back`). The same holds for a track of more than 50 points: a file of 1100 bytes whose second record is a track of 100 points is decoded forever (`C60_track_endless`, `C70_track_back`).
* Group types above 255 are accepted but the element cannot be encoded (`C53_group_type_counterexample`).
* A closed line that is read and written again grows by its first point each time (`C125_grows`); one of 500 points cannot be written again
  (`C125_full`).  The decoder appends the first point whether or not the line already ends there, and the encoder does not take it off.
* A special line of direction −1 that is read and written again is turned round each time (`C125_turned`): the decoder reverses the points but
  keeps the direction −1.
* A non-ASCII special text loses its end or makes the file unreadable (`C67_cut_counterexample`, `C67_counterexample`); `$$` comes
  back as a line break (`C67_dollar_counterexample`).
* Closed lines come back with an extra point (`C55_closed_counterexample`); special lines of direction -1 come back reversed
  (`C55_reversed_counterexample`).
* Fewer than 40 bytes after the last record raise `struct.error` (`C59_short_tail`).
* A record of size 0 is decoded forever (`C60_counterexample`, `C70_counterexample`).
* `close_coordinates` always raises for Python lists (`C64_lists`); `_decode_strip_null` drops the last character of a text without
  NUL (`C65_counterexample`); `_swap32` raises for negative numbers (`C68_negative`).
* Symbols and markers are made with symbol codes, widths and sizes that their setters refuse (`C90_unchecked`).
* `get_met` returns nothing unless there is a SIGMET (`C66_met_counterexample`); `get_text` also returns special texts
  (`C66_text_counterexample`).
* `to_json` of a vector graphic file raises `TypeError` when the file has a jet (`C89_jet`): attributes of jets are plain objects.  It
  raises `TypeError` for every file when the caller gives `cls`, which is passed on twice (`C89_cls`).
* An advisory gives as many equal elements as it has watches and warnings (`C86_advisory_partial`), none without any (`C86_lost`,
  `C86_counterexample`).  One with a watch or warning that states no break points raises, and so does opening its file
  (`C86_no_breaks`, `C86_unread`).
* The `status` of a SIGMET (new, amended, cancelled) is lost: the attribute holds the text of the area (`C85_sigmet_status`).
* Tropical cyclone error, track and break point records and significant weather records always raise (`C74_fails`).

Seen while reading, without a theorem of its own: the GRIB missing flag written is always -1; `parts = 0` gives `struct.error` on
reading; `pack_data=True` is not implemented; `header` is unset when a file has no header record and deleted elements are returned
(both follow from `C85_records_partial`).
