{"id": "C01", "title": "Packed grid integers survive a pack/unpack round trip", "statement": "For every bit width in 1..31 and every list of integers below 2^width whose packed form needs at least two 32-bit words, unpacking the words produced by the grid packer returns exactly the integers packed.", "quantifier": "all bit widths 1..31, all lengths, all element values", "why_tests_cant": "The bit offset of an element depends on width and index modulo 32; tests fix one width (16) and a few lengths.", "anchors": ["src/gempakio/encode/gempak.py: pack_grib", "src/gempakio/decode/gempak.py: _unpack_grib"]}
{"id": "C02", "title": "Packed grid bit layout is MSB-first and gap free", "statement": "The words produced by the grid packer are exactly the big-endian concatenation of the width-bit fields, cut into 32-bit words, zero-filled at the end, with ceil(count*width/32) words.", "quantifier": "all bit widths 1..31, all lists of field values", "why_tests_cant": "Interoperability with GEMPAK needs the layout for every width and length, not only that our own reader inverts our own writer.", "anchors": ["src/gempakio/encode/gempak.py: pack_grib"]}
{"id": "C03", "title": "Grid unpacker reads the field at its bit position for arbitrary words", "statement": "For any words (not just those written by this library), element k returned by the grid unpacker is the integer formed by bits [k*width,(k+1)*width) of the big-endian concatenation of the words.", "quantifier": "all word lists long enough for the grid, all widths 1..31, all indices", "why_tests_cant": "Files come from other writers; tests compare a handful of sample files.", "anchors": ["src/gempakio/decode/gempak.py: _unpack_grib"]}
{"id": "C04", "title": "Quantisation error of a packed grid is at most half a step", "statement": "In exact arithmetic, every non-missing grid value is reproduced by pack followed by unpack to within half of the stored scale, for both halves of the scale search.", "quantifier": "all finite non-missing grids, all widths 2..31, any rounding-to-nearest function", "why_tests_cant": "The error bound ranges over all real data ranges and all scale exponents.", "anchors": ["src/gempakio/encode/gempak.py: pack_grib", "src/gempakio/decode/gempak.py: _unpack_grib"]}
{"id": "C05", "title": "Missing grid values come back missing and only missing ones do", "statement": "After pack and unpack a grid point is missing if and only if it was missing (NaN or the missing value) before.", "quantifier": "all grids, all widths", "why_tests_cant": "Collisions between the all-ones flag and a real value depend on rounding of the largest value; only special data ranges trigger them.", "anchors": ["src/gempakio/encode/gempak.py: pack_grib", "src/gempakio/decode/gempak.py: _unpack_grib"]}
{"id": "C06", "title": "Scale search terminates with the finest power-of-two step that fits", "statement": "For every positive data range the search over scale exponents ends, and the exponent it picks is the unique one for which the range fits below 2^width-1 but would not fit at twice the resolution.", "quantifier": "all positive data ranges, all widths 2..31", "why_tests_cant": "Loop termination and optimality for every real range.", "anchors": ["src/gempakio/encode/gempak.py: pack_grib"]}
{"id": "C07", "title": "Constant, all-missing and tiny grids", "statement": "A grid with a single value packs to all zeros with scale one and unpacks to that value; a grid that is entirely missing unpacks to all missing; a grid whose packed form needs only one word is reported as an error by the packer or as unreadable by the unpacker, never as wrong data.", "quantifier": "all grid sizes and values in these degenerate classes", "why_tests_cant": "Degenerate classes are infinite families in size and width.", "anchors": ["src/gempakio/encode/gempak.py: pack_grib", "src/gempakio/decode/gempak.py: _unpack_grib"]}
{"id": "C08", "title": "Unsupported packing widths are refused", "statement": "Packing succeeds only for widths in 1..31; any other width raises ValueError and writes nothing.", "quantifier": "all integer widths", "why_tests_cant": "Infinite set of widths.", "anchors": ["src/gempakio/encode/gempak.py: pack_grib"]}
{"id": "C09", "title": "File regions never overlap", "statement": "For every file the writer can produce, label, data management block, row keys, column keys, file-header keys, file headers, row headers, column headers, part descriptors, the pointer table and the data area occupy pairwise disjoint word ranges in that order, and row headers, part descriptors, the pointer table and the data area start on 128-word blocks.", "quantifier": "all numbers of rows, columns, keys, parts, parameters, file headers and header lengths", "why_tests_cant": "Offsets are computed by rounding; overlap appears only at particular sizes.", "anchors": ["src/gempakio/encode/gempak.py: DataManagementFile._set_pointers", "src/gempakio/encode/gempak.py: DataManagementFile._dmword"]}
{"id": "C10", "title": "Written structure blocks read back identical", "statement": "Opening a file produced by any of the writers yields the label fields, row and column key names, part name/type/parameters and row and column headers that were written.", "quantifier": "all files (surface, sounding, grid) and all histories of add calls", "why_tests_cant": "Depends on all sizes at once.", "anchors": ["src/gempakio/encode/gempak.py: DataManagementFile.to_gempak", "src/gempakio/decode/gempak.py: GempakFile.__init__"]}
{"id": "C11", "title": "Pointer table addresses every stored record and nothing else", "statement": "For every (row, column) the pointer stored in the file is zero if no data was added there and otherwise the word where exactly the data of that cell starts; data records never overlap one another or any other region, and the recorded next-free word is beyond every record.", "quantifier": "all patterns of present and absent cells, all record lengths", "why_tests_cant": "Exponentially many presence patterns.", "anchors": ["src/gempakio/encode/gempak.py: SurfaceFile._write_data", "src/gempakio/encode/gempak.py: SoundingFile._write_data", "src/gempakio/encode/gempak.py: GridFile._write_data", "src/gempakio/decode/gempak.py: GempakFile.__init__"]}
{"id": "C12", "title": "File length is a multiple of the 512-byte GEMPAK block", "statement": "The byte length of every file written is a multiple of 512.", "quantifier": "all presence patterns and record lengths", "why_tests_cant": "Only some last cells trigger the missing padding.", "anchors": ["src/gempakio/encode/gempak.py: SurfaceFile._write_data", "src/gempakio/encode/gempak.py: SoundingFile._write_data", "src/gempakio/encode/gempak.py: GridFile._write_data"]}
{"id": "C13", "title": "Saving is repeatable", "statement": "Calling to_gempak twice on the same object, without adding data in between, writes identical bytes.", "quantifier": "all object states reachable by add calls", "why_tests_cant": "Hidden state (pointers, next free word) could leak between saves for some histories.", "anchors": ["src/gempakio/encode/gempak.py: DataManagementFile.to_gempak"]}
{"id": "C14", "title": "Surface file round trip", "statement": "After any successful history of station additions, opening the written file and asking for all stations returns, for each (station, time), exactly the parameter values last added there, in the file parameter order, with missing where the value was NaN.", "quantifier": "all histories of add_station calls, all parameters and stations within limits", "why_tests_cant": "Unbounded histories with overwrites in any order.", "anchors": ["src/gempakio/encode/gempak.py: SurfaceFile.add_station", "src/gempakio/encode/gempak.py: SurfaceFile._write_data", "src/gempakio/decode/gempak.py: GempakSurface._unpack_standard", "src/gempakio/decode/gempak.py: GempakSurface.sfjson"]}
{"id": "C15", "title": "Sounding file round trip", "statement": "After any successful history of sounding additions, opening the written file returns for each (station, time) exactly the level-by-level values last added.", "quantifier": "all histories of add_sounding calls, all numbers of levels", "why_tests_cant": "Unbounded histories and level counts.", "anchors": ["src/gempakio/encode/gempak.py: SoundingFile.add_sounding", "src/gempakio/encode/gempak.py: SoundingFile._write_data", "src/gempakio/decode/gempak.py: GempakSounding._unpack_merged"]}
{"id": "C16", "title": "Grid file round trip", "statement": "After any successful history of grid additions, opening the written file lists exactly one grid per distinct (parameter, times, level, coordinate) key, each with the data last added under that key.", "quantifier": "all histories of add_grid calls", "why_tests_cant": "Unbounded histories.", "anchors": ["src/gempakio/encode/gempak.py: GridFile.add_grid", "src/gempakio/encode/gempak.py: GridFile._write_data", "src/gempakio/decode/gempak.py: GempakGrid.__init__", "src/gempakio/decode/gempak.py: GempakGrid._unpack_grid"]}
{"id": "C17", "title": "Adding the same key again replaces the earlier data", "statement": "Adding data for a key already present never produces a second entry; the later data wins and every other key keeps its data.", "quantifier": "all histories, all keys", "why_tests_cant": "Unbounded histories.", "anchors": ["src/gempakio/encode/gempak.py: SurfaceFile.add_station", "src/gempakio/encode/gempak.py: SoundingFile.add_sounding", "src/gempakio/encode/gempak.py: GridFile.add_grid"]}
{"id": "C18", "title": "Not-a-number values are stored as the missing value", "statement": "Every NaN supplied to a writer is read back as the missing value -9999 and no other supplied value changes except by conversion to single precision.", "quantifier": "all data arrays", "why_tests_cant": "All values of all arrays.", "anchors": ["src/gempakio/encode/gempak.py: DataManagementFile._replace_nan", "src/gempakio/encode/gempak.py: SurfaceFile.add_station", "src/gempakio/encode/gempak.py: SoundingFile.add_sounding"]}
{"id": "C19", "title": "Header capacity limits are enforced", "statement": "No successful history of additions produces more than the supported number of parameters (44) in the parameter list, or more headers than 32000, and the call that would exceed a limit raises.", "quantifier": "all histories", "why_tests_cant": "Limits are reached only by long histories.", "anchors": ["src/gempakio/encode/gempak.py: SurfaceFile.add_station", "src/gempakio/encode/gempak.py: SoundingFile.add_sounding", "src/gempakio/encode/gempak.py: GridFile.add_grid", "src/gempakio/encode/gempak.py: SurfaceFile._add_parameters", "src/gempakio/encode/gempak.py: SoundingFile._add_parameters"]}
{"id": "C20", "title": "Byte order of the file does not matter", "statement": "A file whose words are stored big-endian is read to the same result as its little-endian twin.", "quantifier": "all label contents and both byte orders", "why_tests_cant": "Doubling of every possible file.", "anchors": ["src/gempakio/decode/gempak.py: GempakFile._swap_bytes", "src/gempakio/decode/gempak.py: GempakFile.__init__"]}
{"id": "C21", "title": "Non-GEMPAK files are refused", "statement": "Opening any byte string that does not start with the 28-byte GEMPAK banner raises TypeError.", "quantifier": "all byte strings", "why_tests_cant": "All byte strings.", "anchors": ["src/gempakio/decode/gempak.py: GempakFile._process_gempak_header"]}
{"id": "C22", "title": "Dates written come back as the same date", "statement": "Every date from 1969-01-01 to 2068-12-31 and every time of day is read back as the same date, hour and minute; dates outside that window come back a multiple of 100 years off.", "quantifier": "all dates and minutes", "why_tests_cant": "Two-digit years alias.", "anchors": ["src/gempakio/encode/gempak.py: SurfaceFile._write_row_headers", "src/gempakio/decode/gempak.py: GempakFile._make_date", "src/gempakio/decode/gempak.py: GempakFile._make_time"]}
{"id": "C23", "title": "Packed grid date-time words round trip", "statement": "Every initial time from 1969 through 2068 encoded in a grid header word decodes to the same year, month, day, hour and minute.", "quantifier": "all date-times to the minute", "why_tests_cant": "All date-times; the decoder distinguishes two layouts by magnitude.", "anchors": ["src/gempakio/encode/gempak.py: GridFile", "src/gempakio/decode/gempak.py: GempakFile._convert_dattim"]}
{"id": "C24", "title": "Forecast type and lead time round trip", "statement": "Every forecast type (analysis, forecast, guess, initial) and every lead time whose minutes are below 60 and hours below 1000 written in a grid header is read back as the same type and lead time.", "quantifier": "all types, hours, minutes", "why_tests_cant": "All lead times.", "anchors": ["src/gempakio/encode/gempak.py: GridFile", "src/gempakio/decode/gempak.py: GempakFile._convert_ftime"]}
{"id": "C25", "title": "Valid time of a grid equals the time requested", "statement": "The valid time listed for a grid (initial time plus lead) equals the valid time given when adding it.", "quantifier": "all date-times and forecast hours", "why_tests_cant": "All times; the analysis type is special-cased.", "anchors": ["src/gempakio/encode/gempak.py: GridFile.add_grid", "src/gempakio/decode/gempak.py: GempakGrid.gdinfo"]}
{"id": "C26", "title": "Vertical coordinate names and levels round trip", "statement": "Every non-negative level and every vertical coordinate name the reader lists is read back as written.", "quantifier": "all levels, all coordinate names", "why_tests_cant": "All levels; four-character packed names.", "anchors": ["src/gempakio/encode/gempak.py: GridFile", "src/gempakio/decode/gempak.py: GempakFile._convert_level", "src/gempakio/decode/gempak.py: GempakFile._convert_vertical_coord"]}
{"id": "C27", "title": "Parameter names round trip", "statement": "Every parameter name of at most 12 characters without leading or trailing blanks in any 4-character chunk is read back unchanged (upper case).", "quantifier": "all names", "why_tests_cant": "All strings.", "anchors": ["src/gempakio/encode/gempak.py: GridFile.add_grid", "src/gempakio/decode/gempak.py: GempakGrid.__init__"]}
{"id": "C28", "title": "Station identifiers round trip up to eight characters", "statement": "A surface station identifier of up to eight characters is read back unchanged, in upper case.", "quantifier": "all identifiers", "why_tests_cant": "All strings; identifiers are split over two header words.", "anchors": ["src/gempakio/encode/gempak.py: SurfaceFile._write_column_headers", "src/gempakio/decode/gempak.py: GempakSurface.__init__"]}
{"id": "C29", "title": "Station coordinates lose less than a hundredth of a degree", "statement": "Latitude and longitude read back differ from those written by less than 0.01 degree and never exceed, in absolute value, the rounded product of the coordinate and 100.", "quantifier": "all coordinates", "why_tests_cant": "All real numbers.", "anchors": ["src/gempakio/encode/gempak.py: SurfaceFile", "src/gempakio/encode/gempak.py: SoundingFile", "src/gempakio/decode/gempak.py: GempakSurface", "src/gempakio/decode/gempak.py: GempakSounding"]}
{"id": "C30", "title": "Bit-packed real data decode to scaled, offset fields", "statement": "For a part with packed reals, value k of each record decodes to (field+offset)*10^scale where the field is the given number of bits at the running bit position counted LSB-first within words, or missing if and only if every bit of the field is one.", "quantifier": "all bit widths 0..32 per parameter, all data words", "why_tests_cant": "Cross-word fields appear only for some width sequences.", "anchors": ["src/gempakio/decode/gempak.py: GempakFile._unpack_real"]}
{"id": "C31", "title": "Bit-packed real decoding never reads outside its record", "statement": "Decoding a packed record with at least the number of words implied by the bit widths never touches a word outside the record; a too-short record raises an error instead of yielding data.", "quantifier": "all record lengths and width lists", "why_tests_cant": "All lengths.", "anchors": ["src/gempakio/decode/gempak.py: GempakFile._unpack_real"]}
{"id": "C32", "title": "DIFF-packed grids decode to running sums", "statement": "A grid packed by differences decodes each row start and element to the running sum of the stored differences times scale plus minimum, and to missing exactly where the flag field is stored.", "quantifier": "all words, widths and grid shapes", "why_tests_cant": "All grids.", "anchors": ["src/gempakio/decode/gempak.py: GempakGrid._unpack_grid"]}
{"id": "C33", "title": "Bit shifts behave as Fortran ISHFT on 32-bit words", "statement": "The shift helper returns the 32-bit logical shift left or right of its argument and zero for shifts of 32 or more.", "quantifier": "all 32-bit words and all shift counts", "why_tests_cant": "2^32 x shifts.", "anchors": ["src/gempakio/decode/gempak.py: GempakFile._fortran_ishift"]}
{"id": "C34", "title": "Grid selection returns exactly the matching grids", "statement": "A grid query returns precisely those listed grids that satisfy every supplied criterion, each once, and raises KeyError if and only if none matches.", "quantifier": "all files and all criteria combinations", "why_tests_cant": "Combinatorial.", "anchors": ["src/gempakio/decode/gempak.py: GempakGrid.gdxarray"]}
{"id": "C35", "title": "Sounding selection returns exactly the matching soundings", "statement": "A sounding query returns precisely those listed soundings satisfying every supplied criterion and raises KeyError if and only if none matches.", "quantifier": "all files and all criteria combinations", "why_tests_cant": "Combinatorial.", "anchors": ["src/gempakio/decode/gempak.py: GempakSounding.snxarray"]}
{"id": "C36", "title": "Surface selection returns exactly the matching reports", "statement": "A surface query returns precisely those listed reports satisfying every supplied criterion and raises KeyError if and only if none matches.", "quantifier": "all files and all criteria combinations", "why_tests_cant": "Combinatorial.", "anchors": ["src/gempakio/decode/gempak.py: GempakSurface.sfjson"]}
{"id": "C37", "title": "Nearest-time search returns a closest report for each station", "statement": "For every selected station, the report returned has minimal absolute time difference to the requested time among the reports for that station; exactly one report per station is returned.", "quantifier": "all report sets and times", "why_tests_cant": "All sets.", "anchors": ["src/gempakio/decode/gempak.py: GempakSurface.nearest_time"]}
{"id": "C38", "title": "Report text timing and loss", "statement": "The TEXT and SPCL strings of a surface cell are split into the reports they hold, losing none of their characters but white space and separators. Each report becomes one output report: a regular one with the date and time of the file, a special one with the time of its first DDHHMMZ group when that is a time of the month of the file, else the time of the file. Headers and values are kept.", "quantifier": "all report texts", "why_tests_cant": "All strings.", "anchors": ["src/gempakio/decode/gempak.py: GempakSurface._process_report_text"]}
{"id": "C39", "title": "Unused headers do not disturb the others", "statement": "A file with unused (deleted) row or column headers lists the used ones with the same content as if the unused ones were absent.", "quantifier": "all positions of unused headers", "why_tests_cant": "All patterns.", "anchors": ["src/gempakio/decode/gempak.py: GempakFile.__init__"]}
{"id": "C40", "title": "Truncated files are reported, not misread", "statement": "A file cut short inside the structures being read raises an error rather than returning values not in the file.", "quantifier": "all truncation points", "why_tests_cant": "Every prefix length.", "anchors": ["src/gempakio/decode/gempak.py: GempakFile.__init__", "src/gempakio/tools.py: IOBuffer.read_int"]}
{"id": "C41", "title": "Buffer reader behaves as a cursor over bytes", "statement": "Any sequence of reads, skips, marks, jumps on the buffer reader returns the bytes at the positions a simple cursor model predicts; two consecutive reads equal one read of the combined length.", "quantifier": "all operation sequences", "why_tests_cant": "Unbounded sequences.", "anchors": ["src/gempakio/tools.py: IOBuffer"]}
{"id": "C42", "title": "OrderedSet keeps first-insertion order without duplicates", "statement": "After any sequence of add and discard, iteration lists each member once in the order of its surviving first insertion and membership agrees with the mathematical set.", "quantifier": "all operation sequences", "why_tests_cant": "Unbounded sequences.", "anchors": ["src/gempakio/tools.py: OrderedSet"]}
{"id": "C43", "title": "Named structure pack/unpack round trip", "statement": "Unpacking the bytes packed from a set of in-range named fields gives back the same fields, for both byte orders.", "quantifier": "all formats of integer, float and string fields", "why_tests_cant": "All formats and values.", "anchors": ["src/gempakio/tools.py: NamedStruct"]}
{"id": "C44", "title": "Word and byte positions are inverse", "statement": "Converting a 1-based word to a byte position and back is the identity, and every byte position inside a word maps to that word.", "quantifier": "all words and positions", "why_tests_cant": "All naturals.", "anchors": ["src/gempakio/common.py: _position_to_word", "src/gempakio/common.py: _word_to_position"]}
{"id": "C45", "title": "Log-pressure interpolation stays between its end points", "statement": "Interpolating at a pressure strictly between the two levels returns for every non-direction parameter a value between the two inputs, and exactly the affine function of log pressure; it raises if the pressure is not strictly between or is non-positive (ValueError), or if a level lacks its pressure or the upper one a parameter of the lower one (KeyError).", "quantifier": "all real inputs", "why_tests_cant": "All reals.", "anchors": ["src/gempakio/gemcalc.py: interp_parameters"]}
{"id": "C46", "title": "Direction interpolation follows the shorter arc", "statement": "Interpolated direction lies in [0,360) and on the shorter arc between the two directions.", "quantifier": "all real directions", "why_tests_cant": "All reals.", "anchors": ["src/gempakio/gemcalc.py: interp_parameters"]}
{"id": "C47", "title": "Missing values propagate through the thermodynamic formulas", "statement": "Each formula returns missing exactly when a required input is missing (or outside its domain), never a number computed from the missing flag.", "quantifier": "all inputs", "why_tests_cant": "All reals.", "anchors": ["src/gempakio/gemcalc.py: mixing_ratio", "src/gempakio/gemcalc.py: vapor_pressure", "src/gempakio/gemcalc.py: virtual_temperature", "src/gempakio/gemcalc.py: scale_height", "src/gempakio/gemcalc.py: moist_hydrostatic_height"]}
{"id": "C48", "title": "Virtual temperature is at least the temperature", "statement": "For every valid dewpoint and pressure the virtual temperature is not below the actual temperature, and the mixing ratio is non-negative.", "quantifier": "all physical inputs", "why_tests_cant": "All reals.", "anchors": ["src/gempakio/gemcalc.py: virtual_temperature", "src/gempakio/gemcalc.py: mixing_ratio"]}
{"id": "C49", "title": "Pressure interpolation fills only gaps", "statement": "Interpolating pressure from heights never changes a pressure that was present and fills levels bracketed by known levels with a positive pressure between the bracketing pressures when the height is between the bracketing heights.", "quantifier": "all soundings", "why_tests_cant": "All soundings.", "anchors": ["src/gempakio/gemcalc.py: interp_logp_pressure"]}
{"id": "C50", "title": "Missing-data interpolation never changes a present first variable", "statement": "Interpolating missing data keeps the number of levels and every temperature, direction and dewpoint that was present unless its partner was missing and refilled.", "quantifier": "all soundings", "why_tests_cant": "All soundings.", "anchors": ["src/gempakio/gemcalc.py: interp_missing_data"]}
{"id": "C51", "title": "Height interpolation terminates", "statement": "Interpolating heights terminates for every sounding.", "quantifier": "all soundings", "why_tests_cant": "Non-termination needs special pressure orders.", "anchors": ["src/gempakio/gemcalc.py: interp_logp_height"]}
{"id": "C52", "title": "Merged soundings have equal-length columns", "statement": "Merging mandatory, significant and wind parts yields columns of one common length.", "quantifier": "all combinations of parts", "why_tests_cant": "Combinatorial.", "anchors": ["src/gempakio/decode/gempak.py: GempakSounding._merge_sounding"]}
{"id": "C53", "title": "Vector graphic element size matches its record size", "statement": "Every encodable vector graphic element produces exactly as many bytes as the record size stored in its own header.", "quantifier": "all elements and setter histories", "why_tests_cant": "All texts and point counts.", "anchors": ["src/gempakio/encode/vgf.py: Element", "src/gempakio/encode/vgf.py: SpecialText", "src/gempakio/encode/vgf.py: Line"]}
{"id": "C54", "title": "Vector graphic file round trip", "statement": "Decoding the file written from any list of elements yields, in order, one decoded element per added element with the same kind.", "quantifier": "all element lists", "why_tests_cant": "Unbounded lists.", "anchors": ["src/gempakio/encode/vgf.py: VGFile.to_vgf", "src/gempakio/decode/vgf.py: VectorGraphicFile"]}
{"id": "C55", "title": "Vector graphic element fields round trip", "statement": "Every field stored in a line, special line, front, special text, symbol or marker (coordinates in single precision) is read back as set.", "quantifier": "all field values accepted by the setters", "why_tests_cant": "All values.", "anchors": ["src/gempakio/encode/vgf.py: Line", "src/gempakio/encode/vgf.py: Front", "src/gempakio/encode/vgf.py: SpecialLine", "src/gempakio/encode/vgf.py: SpecialText", "src/gempakio/encode/vgf.py: SymbolBase", "src/gempakio/decode/vgf.py: VectorGraphicFile"]}
{"id": "C56", "title": "Element attributes stay in range under any setter history", "statement": "After any sequence of successful or failing setter calls, colours are in 0..32, fill in 0..8, smooth in 0..2, closed in 0..1, and failing calls leave the element unchanged.", "quantifier": "all setter histories", "why_tests_cant": "Unbounded histories.", "anchors": ["src/gempakio/encode/vgf.py: Element", "src/gempakio/encode/vgf.py: LineBase", "src/gempakio/encode/vgf.py: TextBase"]}
{"id": "C57", "title": "Front width always equals the intensity digit of its code", "statement": "After any sequence of width and code changes the width of a front is the middle digit of its three-digit code and type and character digits are those last set by a code change.", "quantifier": "all histories", "why_tests_cant": "Unbounded histories.", "anchors": ["src/gempakio/encode/vgf.py: Front.width", "src/gempakio/encode/vgf.py: Front.front_code"]}
{"id": "C58", "title": "Flipping twice restores direction", "statement": "Flipping a front or special line twice restores its direction and direction is always 1 or -1.", "quantifier": "all histories", "why_tests_cant": "Unbounded histories.", "anchors": ["src/gempakio/encode/vgf.py: Front.flip", "src/gempakio/encode/vgf.py: SpecialLine.flip"]}
{"id": "C59", "title": "Vector graphic decoding stops cleanly at the first invalid record", "statement": "Decoding a file consisting of valid records followed by a record with an invalid header yields exactly the elements of the valid records and raises nothing.", "quantifier": "all valid prefixes and invalid tails", "why_tests_cant": "All files.", "anchors": ["src/gempakio/decode/vgf.py: VectorGraphicFile._decode_elements", "src/gempakio/decode/vgf.py: VectorGraphicFile._validate_header"]}
{"id": "C60", "title": "Vector graphic decoding terminates", "statement": "Decoding terminates for every input file.", "quantifier": "all byte strings", "why_tests_cant": "All files.", "anchors": ["src/gempakio/decode/vgf.py: VectorGraphicFile._decode_elements"]}
{"id": "C61", "title": "Groups partition the grouped elements", "statement": "Looking up a group returns exactly the elements carrying that group type and number, in file order; distinct groups share no element.", "quantifier": "all files", "why_tests_cant": "All files.", "anchors": ["src/gempakio/decode/vgf.py: VectorGraphicFile.get_group"]}
{"id": "C62", "title": "Element filtering returns exactly the matching elements", "statement": "Filtering returns precisely those elements satisfying every supplied criterion, in file order.", "quantifier": "all files and criteria", "why_tests_cant": "Combinatorial.", "anchors": ["src/gempakio/decode/vgf.py: VectorGraphicFile.filter_elements"]}
{"id": "C63", "title": "File bounds contain every bounded element", "statement": "The bounds reported for a file contain the bounds of each element that has non-zero bounds and, for bounds within 9999 degrees, are attained.", "quantifier": "all element lists", "why_tests_cant": "All lists.", "anchors": ["src/gempakio/decode/vgf.py: VectorGraphicFile.bounds"]}
{"id": "C64", "title": "Closing and flipping coordinates", "statement": "Closing a coordinate list appends the first point exactly once; flipping reverses and is its own inverse.", "quantifier": "all coordinate lists", "why_tests_cant": "All lists.", "anchors": ["src/gempakio/decode/vgf.py: VectorGraphicFile.close_coordinates", "src/gempakio/decode/vgf.py: VectorGraphicFile.flip_coordinates"]}
{"id": "C65", "title": "Fixed-width strings decode to the text before the first NUL", "statement": "Decoding a fixed-width string field returns exactly the characters before the first NUL, or all of them if there is none.", "quantifier": "all byte strings", "why_tests_cant": "All strings.", "anchors": ["src/gempakio/decode/vgf.py: VectorGraphicFile._decode_strip_null"]}
{"id": "C66", "title": "Category getters agree with the element classes", "statement": "Each getter returns exactly the elements of its class and returns them whenever any exist.", "quantifier": "all element lists", "why_tests_cant": "All lists.", "anchors": ["src/gempakio/decode/vgf.py: VectorGraphicFile.get_met", "src/gempakio/decode/vgf.py: VectorGraphicFile.get_text"]}
{"id": "C67", "title": "Special text round trip", "statement": "Every special text of up to 254 characters is read back with the same characters (up to blank stripping).", "quantifier": "all texts", "why_tests_cant": "All strings incl. non-ASCII.", "anchors": ["src/gempakio/encode/vgf.py: SpecialText.encode", "src/gempakio/decode/vgf.py: VectorGraphicFile._decode_special_text"]}
{"id": "C68", "title": "32-bit byte swap is an involution", "statement": "Swapping the bytes of a 32-bit word twice gives back the word, and the swap reverses the byte order.", "quantifier": "all 32-bit words", "why_tests_cant": "2^32 values.", "anchors": ["src/gempakio/decode/vgf.py: VectorGraphicFile._swap32"]}
{"id": "C69", "title": "Failed additions leave the file unchanged", "statement": "If an add call raises, saving afterwards writes the same file as if the call had not been made.", "quantifier": "all failing calls after all histories", "why_tests_cant": "All histories.", "anchors": ["src/gempakio/encode/gempak.py: SurfaceFile.add_station", "src/gempakio/encode/gempak.py: SoundingFile.add_sounding", "src/gempakio/encode/gempak.py: GridFile.add_grid"]}
{"id": "C70", "title": "Record size equal to or below the header size cannot move the reader backwards", "statement": "Every accepted vector graphic record advances the reader by at least one byte.", "quantifier": "all records", "why_tests_cant": "All records.", "anchors": ["src/gempakio/decode/vgf.py: VectorGraphicFile._decode_elements"]}
{"id": "C71", "title": "Hydrostatic height filling ends and keeps measured heights", "statement": "Filling missing heights hydrostatically (interp_moist_height, used when decoding unmerged soundings) always ends, changes only the height column, and leaves the height of every level that has both a temperature and a height as it was.", "quantifier": "all soundings with columns of equal length, any values and any missing marker", "why_tests_cant": "The loop bounds depend on the data; tests only run a few soundings.", "anchors": ["src/gempakio/gemcalc.py: interp_moist_height"]}
{"id": "C72", "title": "Merging unmerged soundings ends", "statement": "Decoding an unmerged sounding always ends, with a merged sounding, nothing, or an error, whatever numbers the parts hold.", "quantifier": "all contents of the twelve parts, all column sets and numbers of levels, any missing marker", "why_tests_cant": "Several while loops in merging and interpolation depend on the order of pressures and heights in the data; a hang shows only for particular data.", "anchors": ["src/gempakio/decode/gempak.py: GempakSounding._merge_sounding", "src/gempakio/gemcalc.py: interp_logp_height"]}
{"id": "C73", "title": "Upper-level winds on heights reach the merged sounding", "statement": "Significant winds reported on heights above 100 hPa take part in the merged sounding whether or not there are such winds below 100 hPa.", "quantifier": "all unmerged soundings with a PPDD part on heights", "why_tests_cant": "Needs soundings with upper winds but no lower ones.", "anchors": ["src/gempakio/decode/gempak.py: GempakSounding._merge_sounding"]}
{"id": "C74", "title": "Tropical cyclone and significant weather records are decoded", "statement": "Every tropical cyclone error cone, track or break point record and every significant weather record with a valid header is decoded into an element, and the rest of the file is decoded too.", "quantifier": "all files with such a record, at any place", "why_tests_cant": "No sample files with such records exist; the failure concerns every one of them.", "anchors": ["src/gempakio/decode/vgf.py: VectorGraphicFile._decode_tc_error", "src/gempakio/decode/vgf.py: VectorGraphicFile._decode_tc_track", "src/gempakio/decode/vgf.py: VectorGraphicFile._decode_tc_break_point", "src/gempakio/decode/vgf.py: VectorGraphicFile._decode_sgwx"]}
{"id": "C75", "title": "Datasets of soundings are ordered tables", "statement": "Every dataset returned by snxarray for a merged file has its levels from high to low pressure (or from low to high height), holds exactly the stored levels, keeps the values of one level together in every variable, and shows nothing where the missing value is stored; for a written file there is one dataset for each surviving request.", "quantifier": "all merged files, all queries; all histories of add_sounding calls", "why_tests_cant": "Tests compare a few soundings that are already in order; a slip in sorting or masking shows only on particular data.", "anchors": ["src/gempakio/decode/gempak.py: GempakSounding.snxarray"]}
{"id": "C76", "title": "Unmerged files: one dataset for each sounding with levels", "statement": "For an unmerged file snxarray returns, in the order of sninfo, one dataset for each listed sounding that satisfies the query and whose parts have a level, with the listed site and time, pressures from high to low, five variables with one entry for every level, and the message texts of its parts.", "quantifier": "all unmerged files, all queries, all contents of the parts", "why_tests_cant": "Needs files with every combination of absent and empty parts.", "anchors": ["src/gempakio/decode/gempak.py: GempakSounding._unpack_unmerged", "src/gempakio/decode/gempak.py: GempakSounding.snxarray"]}
{"id": "C77", "title": "Soundings with data are listed", "statement": "Every time and site for which some part of an unmerged file has data is listed by sninfo.", "quantifier": "all unmerged files", "why_tests_cant": "Needs files in which the first part is absent at some site.", "anchors": ["src/gempakio/decode/gempak.py: GempakSounding.__init__"]}
{"id": "C78", "title": "Size, corners and contents of a grid file are those of the input", "statement": "A grid file made from coordinates and a projection and then saved can be opened in any byte order; it has as many columns and rows as the input, its corners are the first and last point of the input to the nearest single precision number, and it lists and returns the grids that were added.", "quantifier": "all coordinate arrays (geographic or projected), projections, rotations and histories of add_grid calls", "why_tests_cant": "Tests try a handful of grids and projections; the claim couples constructor, writer and reader for all of them.", "anchors": ["src/gempakio/encode/gempak.py: GridFile.__init__", "src/gempakio/encode/gempak.py: GridFile._set_bbox", "src/gempakio/encode/gempak.py: GridFile._write_file_headers", "src/gempakio/decode/gempak.py: GempakGrid.__init__"]}
{"id": "C79", "title": "The coordinate system of a grid file is read back", "statement": "The coordinate system of an opened grid file is of the same projection, with the same parameters to single precision, as the projection the file was made with.", "quantifier": "all projections the constructor accepts, all parameters, all grids", "why_tests_cant": "A dropped or exchanged parameter shows only for projections in which it is not the default.", "anchors": ["src/gempakio/encode/gempak.py: GridFile._set_projection_params", "src/gempakio/decode/gempak.py: GempakGrid._get_crs"]}
{"id": "C80", "title": "Documented projections are accepted", "statement": "A grid file can be made with every projection the documentation lists: Mercator, stereographic, Lambert conformal conic, equidistant cylindrical, orthographic, azimuthal equidistant, Lambert azimuthal equal area, gnomonic, transverse Mercator and universal transverse Mercator.", "quantifier": "all projections of these kinds with all parameters, all grids with at least one point", "why_tests_cant": "Tests cover one parameter set for some of the projections.", "anchors": ["src/gempakio/encode/gempak.py: GridFile.__init__", "src/gempakio/encode/gempak.py: GridFile._set_projection_params"]}
{"id": "C81", "title": "Coordinates of a grid file", "statement": "The projected coordinates of an opened grid file are as many as its columns and rows, evenly spaced and run between the projected corners; for an evenly spaced input no coordinate is farther from the input than the error made at the corners.", "quantifier": "all grids, all projections used for writing and reading, all error bounds", "why_tests_cant": "The error of interior points can only be bounded by an argument for all positions.", "anchors": ["src/gempakio/decode/gempak.py: GempakGrid._set_coordinates", "src/gempakio/encode/gempak.py: GridFile._set_bbox"]}
{"id": "C82", "title": "Grids of any size can be saved", "statement": "A grid file whose grid has at least one point, whose coordinates fit single precision and whose values can be packed can be saved.", "quantifier": "all sizes, projections, coordinates and histories of add_grid calls", "why_tests_cant": "Tests use grids of usual size.", "anchors": ["src/gempakio/encode/gempak.py: GridFile._write_file_headers"]}
{"id": "C83", "title": "Surface reports have the values of all parts", "statement": "For every surface file, whoever wrote it, that stores no report text: sfjson() returns one report for each site wanted; it names the site, position and time that sfinfo() lists, has every parameter of every part with data, each with the number or text stored at its place in the file, and no parameter of a part without data. A cell is listed exactly when any of its parts has data.", "quantifier": "all files that can be opened, all numbers of parts, header lengths, data types, queries", "why_tests_cant": "Sample files have one or two parts and few missing parts; which combination of absent parts breaks the loop can only be settled for all.", "anchors": ["src/gempakio/decode/gempak.py: GempakSurface.sfjson, GempakSurface._unpack_standard, GempakSurface._unpack_ship, GempakSurface._unpack_climate"]}
{"id": "C84", "title": "Merged soundings have the columns of all parts", "statement": "For every file of merged soundings, whoever wrote it: snxarray() returns one sounding for each wanted; it names the site, position and time that sninfo() lists and has every parameter of every part with data, with the value of each level from its place in the file, pressure or else height serving as the vertical coordinate.", "quantifier": "all files that can be opened, all numbers of parts, parameters and levels, header lengths, data types, queries", "why_tests_cant": "The places of values depend on the number of parameters and levels; tests fix both.", "anchors": ["src/gempakio/decode/gempak.py: GempakSounding.snxarray, GempakSounding._unpack_merged"]}
{"id": "C85", "title": "Elements of a vector graphic file have the values of its records", "statement": "For every vector graphic file, whoever wrote it, that opens: its records are found one right after the other from the first byte to the end of the file or to the first bytes that are no record; each record gives the elements of its class and type, each with the header of the record and with every attribute having the value stored at its documented place (in the form documented for it), names following from codes; the file header is that of the last file header record. Counts of points, items, counties, barbs and hashes within the tables of the format.", "quantifier": "all byte sequences, all record kinds and versions", "why_tests_cant": "Each record kind has dozens of attributes at fixed places and tables of fixed size after variable counts; samples hold few of the kinds and versions.", "anchors": ["src/gempakio/decode/vgf.py: VectorGraphicFile._decode_elements and every _decode_* it calls"]}
{"id": "C86", "title": "Tropical cyclone advisories have the values of their tags", "statement": "A record of a tropical cyclone advisory whose text is a sequence of tags with values gives one element, whose attributes are the numbers and texts that its tags state, in whatever order the tags come and whatever other tags there are; each watch or warning has its severity, type, geography and all its break points.", "quantifier": "all sequences of tags, all values without mark-up, all numbers of watches, warnings and break points", "why_tests_cant": "The text is searched by one pattern per tag, and break points are cut by their number; tests have one or two advisories.", "anchors": ["src/gempakio/decode/vgf.py: VectorGraphicFile._decode_tca, TropicalCycloneAdvisoryElement"]}
{"id": "C87", "title": "Mandatory levels are in the merged sounding", "statement": "A mandatory level of an unmerged sounding, of the lower or the upper part, that gives pressure, temperature and height, with a pressure below those of the surface and of the mandatory levels before it, is a level of the merged sounding with the same pressure, temperature, dew point, height and wind, whatever else is merged with it.", "quantifier": "all contents of the twelve parts, all numbers of levels", "why_tests_cant": "Eight steps of merging insert levels, change winds and interpolate; whether any of them moves or changes a measured value depends on the relative positions of all levels.", "anchors": ["src/gempakio/decode/gempak.py: GempakSounding._merge_sounding", "src/gempakio/gemcalc.py: interp_logp_height, interp_logp_pressure, interp_missing_data, interp_moist_height"]}
{"id": "C88", "title": "Significant levels are in the merged sounding", "statement": "A significant temperature, tropopause, significant wind on pressure or maximum wind of an unmerged sounding, whose pressure is below that of the surface and of the levels before it in its kind, is a level of the merged sounding: there is a level with its pressure and a temperature (a wind) there, and these are its own values unless parts merged earlier have a level at the same pressure.", "quantifier": "all contents of the twelve parts, all numbers of levels", "why_tests_cant": "Whether a level is found, inserted or skipped depends on all levels merged before it.", "anchors": ["src/gempakio/decode/gempak.py: GempakSounding._merge_sounding"]}
{"id": "C89", "title": "A vector graphic file can be had as JSON", "statement": "For every vector graphic file that opens, to_json gives a list with one object for each element, in order; the object has the header and all attributes of the element under their names: integers and texts as they are, numbers as numbers, arrays as lists of numbers with two decimals, advisories with all their watches, warnings and break points. Keyword arguments are those of json.dumps.", "quantifier": "all files that open, all kinds of elements", "why_tests_cant": "Whether an element can be shown depends on the types of dozens of attributes of each kind of element; tests have no file of every kind.", "anchors": ["src/gempakio/decode/vgf.py: VectorGraphicFile.to_json, NumpyEncoder, VectorGraphicElement"]}
{"id": "C90", "title": "Constructors of vector graphic elements take valid arguments and keep them", "statement": "Line, Front, SpecialLine, SpecialText, SpecialSymbol and Marker can be made exactly from arguments in the documented ranges (tracks of 2 to 500 points with as many longitudes as latitudes, colours 0 to 32, types, sizes, fonts and so on); other arguments raise ValueError. The new element has the arguments as its attributes, the defaults for the rest, and the smallest box around its points.", "quantifier": "all constructor calls with any arguments of the right types", "why_tests_cant": "There are dozens of arguments, checked one after another by setters that depend on each other.", "anchors": ["src/gempakio/encode/vgf.py: Line, Front, SpecialLine, SpecialText, SpecialSymbol, Marker, VGStruct"]}
{"id": "C91", "title": "Gaps in winds and dew points are filled from the levels around them", "statement": "After interp_missing_data, on falling pressures: every measured wind is as before, and a missing wind between levels with wind has the speed and direction interpolated linearly in the logarithm of pressure, the direction along the shorter arc; a missing dew point between two levels with dew points is interpolated the same way, except across 100 hPa where it stays missing; nothing is made up outside the measured levels.", "quantifier": "all soundings with falling pressures, any pattern of missing values", "why_tests_cant": "A gap can be of any length, each filled level is used for the next one, and directions wrap at 360.", "anchors": ["src/gempakio/gemcalc.py: interp_missing_data, interp_parameters"]}
{"id": "C92", "title": "Heights above the highest measured one are hydrostatic", "statement": "After interp_logp_height the heights above the highest level with height follow the hydrostatic equation from one level with temperature to the next, using the virtual temperatures (from temperature, dew point where there is one, and pressure) of both ends; they increase upwards, and a level without temperature has none.", "quantifier": "all soundings with positive falling pressures and temperatures above absolute zero", "why_tests_cant": "The height of a level depends on all levels below it and on which of them have temperature and dew point.", "anchors": ["src/gempakio/gemcalc.py: interp_logp_height, scale_height, moist_hydrostatic_height, virtual_temperature"]}
{"id": "C93", "title": "Moist heights divide measured thicknesses hydrostatically", "statement": "interp_moist_height keeps measured heights; between two of them the heights divide their difference in proportion to the hydrostatic thickness of the layers, so that they lie between the two and increase upwards; above the highest one thicknesses are added; below the lowest there are no heights.", "quantifier": "all soundings with temperatures at all levels, positive falling pressures and increasing heights", "why_tests_cant": "The scaling depends on sums over all levels between two heights.", "anchors": ["src/gempakio/gemcalc.py: interp_moist_height, scale_height, moist_hydrostatic_height, virtual_temperature"]}
{"id": "C94", "title": "The parts of an unmerged sounding are those of its record in the file", "statement": "For every file of unmerged soundings, whoever wrote it: the parts merged for a station and time are exactly those with data there, each with all its parameters; the value of a parameter at a level is the word of the file at the documented place (or the value unpacked from it), for every level that the length of the data allows.", "quantifier": "all files that can be opened, all numbers of parts, parameters and levels, header lengths and data types", "why_tests_cant": "The places depend on the numbers of parts, parameters and levels; tests fix them.", "anchors": ["src/gempakio/decode/gempak.py: GempakSounding._unpack_unmerged, GempakFile._unpack_real, GempakSounding.snxarray"]}
{"id": "C95", "title": "Mandatory levels below the ground are in the merged sounding", "statement": "A mandatory level of the lower part whose pressure is greater than that of the surface is a level of the merged sounding after the surface level, with all the values of the report (height, and the missing values as they are).", "quantifier": "all contents of the twelve parts, all numbers of levels", "why_tests_cant": "These levels are put in last, at a place computed from a count that earlier steps keep up to date or not.", "anchors": ["src/gempakio/decode/gempak.py: GempakSounding._merge_sounding"]}
{"id": "C96", "title": "Winds by height are in the merged sounding", "statement": "In a sounding whose levels above the surface all have heights, increasing from the surface, a significant wind given by height in the lower part, or in the upper part when the lower one gives a wind above the surface, is a level of the merged sounding with its height, direction and speed, when it is above the surface (above the first level over it when the surface has no pressure or no height) and the winds before it, below the highest level, and one metre or more from every other wind and level.", "quantifier": "all contents of the twelve parts, all numbers of levels and winds", "why_tests_cant": "Places are kept in three counters that are moved by every wind; one wrong step loses all later winds.", "anchors": ["src/gempakio/decode/gempak.py: GempakSounding._merge_sounding"]}
{"id": "C97", "title": "Packing a grid loses no more than half a step and the rounding of floating point numbers", "statement": "A grid of 32-bit or 64-bit floats that is packed, stored with its reference and scale as 32-bit floats, and read, differs at every point that is not missing by at most half a step, plus the rounding of the difference to the smallest value, plus the rounding of the smallest value to 32 bits, plus the rounding of the result to 64 bits; half a step alone is not reached in general. Missing points read back missing.", "quantifier": "all grids, widths of 1 to 31 bits, missing values; for the missing points grids whose range rounds to less than the largest packed integer", "why_tests_cant": "Rounding errors depend on the values; equality within a tolerance for a few grids does not bound them.", "anchors": ["src/gempakio/encode/gempak.py: pack_grib, GridFile._write_data", "src/gempakio/decode/gempak.py: _unpack_grib, GempakGrid._unpack_grid"]}
{"id": "C98", "title": "Times may be given as text", "statement": "The documentation of add_station, add_sounding and add_grid allows times as datetime objects or as text. A text YYYYmmddHHMM, for soundings also YYYYmmddHHMMFx with x hours, has the same effect as the datetime it stands for; other texts are refused and nothing changes.", "quantifier": "every file state, every call, every text and every reading of digits by the host", "why_tests_cant": "The texts and their hours are unbounded, dates must be carried over months, years and centuries, and the effect is compared for every state of the file.", "anchors": ["src/gempakio/encode/gempak.py: SurfaceFile.add_station, SoundingFile.add_sounding, GridFile.add_grid"]}
{"id": "C99", "title": "A grid file holds the values its arrays had when they were added", "statement": "add_grid takes the values an array has at the time of the call and leaves the array as it is. What the program does to the array later, for instance using it for the next time step, changes nothing in the file.", "quantifier": "all programs of assignments to arrays and calls of add_grid, any number of arrays", "why_tests_cant": "Whether values are copied or referred to shows only in programs that go on using their arrays; tests make new arrays.", "anchors": ["src/gempakio/encode/gempak.py: GridFile.add_grid, DataManagementFile._replace_nan, GridFile._write_data"]}
{"id": "C100", "title": "Winds of mandatory levels given in parts of their own are merged", "statement": "A mandatory level that gives pressure, temperature and height but no wind has in the merged sounding the wind reported for its pressure in the parts of mandatory winds, the first one in the lower part, else the first one in the upper part. Mandatory winds at pressures without a mandatory temperature level change nothing in the merged sounding.", "quantifier": "all contents of the twelve parts, all numbers of levels; for the second sentence all changes of the winds of one part", "why_tests_cant": "Winds are found by equal pressures among levels that are still being built; tests compare a few soundings.", "anchors": ["src/gempakio/decode/gempak.py: GempakSounding._merge_sounding"]}
{"id": "C101", "title": "Soundings without a surface pressure can be read", "statement": "A report that gives mandatory levels but no surface pressure is merged: its levels are returned, with the tropopause and the significant levels.", "quantifier": "all contents of the twelve parts in which no part gives a surface pressure", "why_tests_cant": "The branches for a missing surface pressure look at positions of other parts that exist in some reports only.", "anchors": ["src/gempakio/decode/gempak.py: GempakSounding._merge_sounding"]}
{"id": "C102", "title": "Everything within the limits of the format is accepted", "statement": "A file can be made for any set of up to 44 parameters, and add_sounding accepts every sounding that gives the parameters of the file in columns of one length of at most 500 levels, while headers are left.", "quantifier": "all sets of parameters, all file states, all calls", "why_tests_cant": "A limit is off by one only at the limit, and the checks depend on the state of the file and on the order of the names.", "anchors": ["src/gempakio/encode/gempak.py: SoundingFile._add_parameters, SoundingFile.add_sounding, DataManagementFile"]}
{"id": "C103", "title": "A saved surface file has one report for each site and time", "statement": "Reports read from a file saved from any sequence of add_station calls differ in their station or in their time; a later report for the same station and time takes the place of the earlier one.", "quantifier": "every sequence of calls, accepted or refused; any byte order", "why_tests_cant": "Two calls that differ in Python may have the same words in the file; which pairs do depends on seconds, fractions of degrees and years.", "anchors": ["src/gempakio/encode/gempak.py: SurfaceFile.add_station, SurfaceFile._write_row_headers", "src/gempakio/decode/gempak.py: GempakSurface.sfjson"]}
{"id": "C104", "title": "nearest_time for an area returns reports of that area", "statement": "Asked for a state, a country or a bounding box, nearest_time returns reports of stations there, the nearest one in time for each of them, and it returns whenever the area is given.", "quantifier": "every file saved from any sequence of calls, every area, every time", "why_tests_cant": "The search goes over identifiers, so the answer for one station depends on all other stations of the file.", "anchors": ["src/gempakio/decode/gempak.py: GempakSurface.nearest_time, GempakSurface.sfjson"]}
{"id": "C105", "title": "Coordinates given to the hundredth of a degree are kept", "statement": "A station or sounding given at a latitude and longitude of two decimals is read from the saved file at the same latitude and longitude; a file made from what was read has the stations where they were.", "quantifier": "all coordinates in whole hundredths of a degree, in surface and sounding files, any byte order", "why_tests_cant": "Whether the product with 100 falls below the integer depends on the binary digits of each coordinate; a test shows it for the coordinates tried.", "anchors": ["src/gempakio/encode/gempak.py: SurfaceFile.add_station, SoundingFile.add_sounding", "src/gempakio/decode/gempak.py: GempakSurface, GempakSounding"]}
{"id": "C106", "title": "A copy of a surface file has the reports of the file", "statement": "When everything sfjson returns for a saved file is given to add_station of a new file and saved, sfjson returns the same reports for the copy.", "quantifier": "every file saved from any sequence of add_station calls, any byte order", "why_tests_cant": "It needs every property and value to survive two conversions, and depends on which reports have the same words for station and time.", "anchors": ["src/gempakio/decode/gempak.py: GempakSurface.sfjson", "src/gempakio/encode/gempak.py: SurfaceFile.add_station, SurfaceFile.to_gempak"]}
{"id": "C107", "title": "A saved sounding file has one sounding for each site and time", "statement": "Soundings read from a file saved from any sequence of add_sounding calls differ in their station or in their time.", "quantifier": "every sequence of calls, accepted or refused; any byte order", "why_tests_cant": "Two calls that differ in Python may have the same words in the file; which pairs do depends on identifiers, seconds, fractions of degrees and years.", "anchors": ["src/gempakio/encode/gempak.py: SoundingFile.add_sounding, SoundingFile._write_row_headers", "src/gempakio/decode/gempak.py: GempakSounding.snxarray"]}
{"id": "C108", "title": "No level of a merged sounding is invented", "statement": "Every level snxarray returns for a sounding that had to be merged is one of the report: its pressure is that of a mandatory, tropopause, significant or maximum wind level, or its height is one for which the report gives a wind. Every temperature and dew point is one the report gives for that pressure, or is interpolated between those of a level before and a level after it.", "quantifier": "every report that can be merged, whatever parts it has and whatever values they hold", "why_tests_cant": "A level passes nine steps that insert levels, compute heights and pressures and fill gaps; that none of them leaves values of its own can only be shown for the whole sequence.", "anchors": ["src/gempakio/decode/gempak.py: GempakSounding._merge_sounding", "src/gempakio/gemcalc.py: interp_missing_data, interp_logp_pressure, interp_logp_height, interp_moist_height"]}
{"id": "C109", "title": "Copies of a packed grid do not drift", "statement": "When the values read from a packed grid are packed again in the same number of bits and read, they are the same values, so any number of copies of a grid file hold what the first one holds.", "quantifier": "all grids, all numbers of bits from 1 to 31, all positions of missing points", "why_tests_cant": "The step and the reference of a copy are chosen anew from the values that were read; whether they represent all of them exactly is a statement about every range and every rounding.", "anchors": ["src/gempakio/encode/gempak.py: pack_grib", "src/gempakio/decode/gempak.py: _unpack_grib, GempakGrid._unpack_grid"]}
{"id": "C110", "title": "Missing points do not coarsen a grid", "statement": "The values of a grid that are not missing are stored with the step their own range allows, whether or not other points of the grid are missing.", "quantifier": "all grids, all numbers of bits from 1 to 31, every value that stands for missing", "why_tests_cant": "Grids of tests have either no missing points or integer values; the step depends on the values of all points.", "anchors": ["src/gempakio/encode/gempak.py: pack_grib, DataManagementFile._replace_nan, GridFile.add_grid"]}
{"id": "C111", "title": "Times to select by may be given in any form", "statement": "snxarray, sfjson and gdxarray select the same data whether times are given as a datetime, as text YYYYmmddHHMM, or as a list or tuple of either; what the caller passes is left as it was.", "quantifier": "all files, all other criteria, all forms and numbers of times", "why_tests_cant": "A test of a form compares the result for one file; that the forms are interchangeable is a statement about all files and all combinations with other criteria.", "anchors": ["src/gempakio/decode/gempak.py: GempakGrid.gdxarray, GempakSounding.snxarray, GempakSurface.sfjson"]}
{"id": "C112", "title": "Station numbers to select by may be given in any form", "statement": "snxarray, sfjson and nearest_time select the same stations whether numbers are given as an integer, as its text, or as a list of either.", "quantifier": "all files, all other criteria, all numbers", "why_tests_cant": "Same as for times; and a wrong reading of a number selects other stations instead of raising, which depends on what stations the file has.", "anchors": ["src/gempakio/decode/gempak.py: GempakSounding.snxarray, GempakSurface.sfjson, GempakSurface.nearest_time"]}
{"id": "C113", "title": "What the records of an unmerged sounding file hold is what snxarray returns", "statement": "For every selected sounding of an unmerged file, each mandatory level of its records that gives pressure, temperature and height and comes in order above the surface is a level of the dataset of that site and time, with the temperature, dew point, height and wind of the record; so are the levels of significant temperatures, tropopauses, significant winds on pressure and maximum winds, with what those parts give, and winds given by height, at their heights; and every other level, temperature and dew point of the dataset is that of some level of its records or is interpolated between two levels of the dataset.", "quantifier": "all files, all criteria, all numbers of parts and levels, plain and packed numbers", "why_tests_cant": "The words of a record pass through the listing of sites, the selection, the reading of parts, the merging, the sorting and the masking; a test sees one file.", "anchors": ["src/gempakio/decode/gempak.py: GempakSounding.snxarray, GempakSounding._unpack_unmerged, GempakSounding._merge_sounding"]}
{"id": "C114", "title": "A copy of a sounding file has the soundings of the file", "statement": "When every dataset snxarray returns for a saved file is given to add_sounding of a new file with the same parameters, with its attributes and with masked values as not-a-number, the datasets read from the new file are those of the first one, in content and in the order of levels; copying once more changes nothing.", "quantifier": "all saved files, all parameters, all numbers of soundings and levels, all values including missing ones", "why_tests_cant": "A copy passes through masking, sorting of levels, rounding and the tables of stations and times twice; tests copy one file, with levels already in order and all different.", "anchors": ["src/gempakio/decode/gempak.py: GempakSounding.snxarray", "src/gempakio/encode/gempak.py: SoundingFile.add_sounding, SoundingFile.to_gempak"]}
{"id": "C115", "title": "Complete vector graphic files open", "statement": "VectorGraphicFile opens every file made of records that have all their bytes, state counts within their tables, are of versions that exist and hold texts and codes that exist, up to the end of the file or to bytes that are no record; it then has exactly the elements of those records, in their order, each with the attributes of its record header.", "quantifier": "all files, all numbers of records, all kinds of records that the reader decodes or skips, all their values", "why_tests_cant": "Reading one record leaves the position from which the next is read; a layout of one kind that fails for some counts loses the whole file. Tests open a few sample files, which do not have all kinds and versions.", "anchors": ["src/gempakio/decode/vgf.py: VectorGraphicFile.__init__, _decode_elements, _decode_fronts, _decode_watches, _decode_jet, _decode_lists, _decode_tracks, _decode_sigmet, _decode_gfa, _decode_ccf, _decode_text"]}
{"id": "C116", "title": "The coordinates of a new grid file agree, whichever way they are given", "statement": "A GridFile made from projected axes keeps them as x and y and has, at every row and column of lon and lat, the point the projection gives for that abscissa and ordinate; one made from longitudes and latitudes keeps those and has as x the projected first row and as y the projected first column. With a projection that takes the points back to where they came from, both ways give the same attributes and, after the same grids are added, the same bytes.", "quantifier": "all projections that are accepted, all sizes and all coordinates", "why_tests_cant": "Rows and columns, abscissas and ordinates are easily exchanged without notice on square or symmetric grids, which tests use.", "anchors": ["src/gempakio/encode/gempak.py: GridFile.__init__, GridFile._set_bbox, GridFile.to_gempak"]}
{"id": "C117", "title": "Each pressure is one level of a merged sounding", "statement": "In a sounding that had to be merged, levels of different parts at the same pressure are one level: no pressure occurs twice. From the surface up pressures fall from level to level, also those of winds given by height, for which the pressure is interpolated; only mandatory levels below the ground, which follow the surface level, are out of this order.", "quantifier": "all reports with a surface pressure, all numbers of parts and levels, all values", "why_tests_cant": "Each part is put into the levels merged so far by a search that is right only if these are in order, and the place of a level depends on all parts before; tests merge a few reports.", "anchors": ["src/gempakio/decode/gempak.py: GempakSounding.snxarray, GempakSounding._merge_sounding", "src/gempakio/gemcalc.py: interp_logp_pressure"]}
{"id": "C118", "title": "No wind of a merged sounding is invented", "statement": "In a sounding that had to be merged, direction and speed of every level are a pair that one level of the report gives for that pressure (or one next to it, at the surface), a pair that a level of winds by height gives, or both are interpolated in the logarithm of pressure between the winds of a level before and a level after: the speed along the line, the direction along the shorter arc. A direction is never paired with the speed of another level of the report.", "quantifier": "all reports with complete mandatory parts, all numbers of parts and levels, all values", "why_tests_cant": "Winds of ten parts are stored at levels found by search, and gaps are filled after levels moved; an index off by one pairs a direction with another level's speed without notice. Tests merge a few reports.", "anchors": ["src/gempakio/decode/gempak.py: GempakSounding.snxarray, GempakSounding._merge_sounding", "src/gempakio/gemcalc.py: interp_missing_data, interp_parameters"]}
{"id": "C119", "title": "What a file lists is stored at the documented places", "statement": "Whoever wrote a file, all the reader reports about it is what the documented words of the file say: every field of the label, the keys of rows and columns, names, types and lengths of parts with names, scale, offset and width of each parameter, navigation and analysis block and other file headers; every entry of the list of stations, if no header before its own is unused, has identifier, number, coordinates, elevation, state, country, date and time of the words of its row and column header, and every entry of the list of grids type, times, name, levels and vertical coordinate of its column header.", "quantifier": "all files in either byte order that open, all sizes and contents of their tables", "why_tests_cant": "Each table is reached through a pointer and its items through counts stored elsewhere; a table read one word off still gives plausible values in files whose words there are alike. Tests compare a few sample files.", "anchors": ["src/gempakio/decode/gempak.py: GempakFile.__init__, _swap_bytes, _convert_dattim, _convert_ftime, _convert_level, _convert_vertical_coord, GempakGrid.gdinfo, GempakSounding.sninfo, GempakSurface.sfinfo"]}
{"id": "C120", "title": "A copy of a grid file has the grids of the file", "statement": "Give the name, coordinate, levels and times that gdinfo lists for each grid, with the values read, to add_grid of a new GridFile of the same size, and save it: every call is accepted, and the copy lists exactly these grids with the same names, coordinates, levels and times, and values as near as the packing allows. Grids that differ in nothing of this become one, grids listed without a level are refused, and all become analyses.", "quantifier": "all lists of grids read from files, whoever wrote them, with times to the minute of 1969 to 2068, all values and packings, saved in either byte order", "why_tests_cant": "What the reader lists must be what the writer accepts and stores, for each field; tests write grids they made up, with arguments other than those the reader returns.", "anchors": ["src/gempakio/decode/gempak.py: GempakGrid.gdinfo, GempakGrid.gdxarray", "src/gempakio/encode/gempak.py: GridFile.add_grid, GridFile.to_gempak"]}
{"id": "C121", "title": "A saved file gives its contents in order", "statement": "In whatever order reports, soundings or grids are added, the saved file gives them in one order: reports and soundings by the time under which they were added, at one time by the first four letters of the identifier, then by number; grids by type, initial time and lead, second time, first and second level, number of the vertical coordinate, and name.", "quantifier": "all histories of calls, all times, stations and names, saved in either byte order", "why_tests_cant": "The order of a file with many headers follows from comparisons of tuples with a field that may be a number or a tuple; tests add one or two items, mostly in order.", "anchors": ["src/gempakio/encode/gempak.py: GridFile.add_grid, SoundingFile.add_sounding, SurfaceFile.add_station", "src/gempakio/decode/gempak.py: GempakGrid.gdinfo, GempakSounding.snxarray, GempakSurface.sfjson"]}
{"id": "C122", "title": "Calls on an opened file do not disturb one another", "statement": "Open a file and call gdxarray, sfjson, nearest_time or snxarray on it any number of times, with any arguments: each call returns or raises what it would as the first call after opening, whatever was asked before and whether or not it raised. It depends on the bytes of the file and the arguments only.", "quantifier": "all contents that open as a grid, surface or sounding file (merged or not), all sequences of calls with all arguments", "why_tests_cant": "All calls read through one buffer with one place and a list of bookmarks that grows and is never cut; an exception leaves the place anywhere. Tests call once or twice on files that are read well.", "anchors": ["src/gempakio/decode/gempak.py: GempakFile.__init__, GempakGrid.gdxarray, GempakSurface.sfjson, GempakSurface.nearest_time, GempakSounding.snxarray", "src/gempakio/tools.py: IOBuffer"]}
{"id": "C123", "title": "A file of another kind gives no data", "statement": "Open a file of one kind with the reader of another: a grid file as surface or sounding file, a surface or sounding file as grid file, or a surface file as sounding file and the other way round. This raises an exception; in no case does it give reports, soundings or grids.", "quantifier": "all histories of calls that save a file, in either byte order, opened by each of the other readers on either host; for the keys needed: all contents whatsoever", "why_tests_cant": "The readers never look at the file type of the label; a file is refused only when a key it lacks happens to be asked for. Tests open files with their own reader.", "anchors": ["src/gempakio/decode/gempak.py: GempakGrid.__init__, GempakSounding.__init__, GempakSurface.__init__, GempakSounding.snxarray, GempakSurface.sfjson", "src/gempakio/encode/gempak.py: GridFile, SoundingFile, SurfaceFile"]}
{"id": "C124", "title": "The values of a grid are those stored in its record", "statement": "Open any grid file that opens, whoever wrote it, and read its grids. What is returned are the listed grids in their order, part by part, with name, time, coordinate and level as listed. Each point is the documented function of the words of the grid's record: the number stored, or reference and scale with the point's field of bits, or the running sum of differences; it is missing exactly where the record says so or the value is the missing value of the file. Grids without a record and grids with fewer than two words of data are left out.", "quantifier": "all byte strings that open as a grid file in either byte order, with any number of parts, columns and header words; plain numbers, fields of 1 to 31 bits and differences of up to 32 bits", "why_tests_cant": "Round trips show only files written by this package, which are packed in one way with one part and two header words. Whether each word is taken from its place for every layout is a statement about all files.", "anchors": ["src/gempakio/decode/gempak.py: GempakGrid.gdxarray, GempakGrid._unpack_grid, _unpack_grib"]}
{"id": "C125", "title": "A copy of a vector graphic file has the elements of the file", "statement": "When a program opens a vector graphic file, passes the attributes of every decoded element to the constructor of its class again, and writes the new elements, no exception is raised and the new file shows the same elements: same class, attributes and header (but for the box of the points, which comes from the rounded points). This is so for open lines, fronts, special lines of direction 1, symbols and markers. A closed line instead grows by its first point with every copy, until it has 500 points and cannot be copied, and a special line of direction -1 is turned round by every copy.", "quantifier": "All files of elements made by constructors with any arguments, any number of copies, any rounding that changes nothing when it is applied again.", "why_tests_cant": "Tests copy sample lines once; that every attribute survives for all arguments, and what becomes of closed lines after any number of copies, needs a proof.", "anchors": ["src/gempakio/encode/vgf.py: Line, Front, SpecialLine, SpecialSymbol, Marker, VGFile.to_vgf", "src/gempakio/decode/vgf.py: VectorGraphicFile, _decode_lines, _decode_special_lines, close_coordinates, flip_coordinates"]}
{"id": "C126", "title": "Moister and warmer air has the higher virtual temperature and the thicker layers", "statement": "vapor_pressure rises with the dew point; mixing_ratio rises with the dew point and falls with the pressure, and is in the documented unit kg/kg; virtual_temperature rises with temperature and dew point and is higher for moist than for dry air; moist_hydrostatic_height with the scale_height of the layer rises as the pressure falls, and more for warmer layers; a layer climbed in two steps gives the height of one step.", "quantifier": "All temperatures above absolute zero, dew points above -243.5 C, pressures above zero, and missing marks below zero.", "why_tests_cant": "Tests compare a few values; order for all real arguments needs a proof.", "anchors": ["src/gempakio/gemcalc.py: vapor_pressure, mixing_ratio, virtual_temperature, scale_height, moist_hydrostatic_height"]}
{"id": "C127", "title": "The surface of an unmerged sounding is the first level of the merged sounding", "statement": "The first level of a merged sounding is the surface of the report: its pressure, temperature and dew point are those of the first mandatory level, or of the first significant temperature when that is at the same pressure (up to the tolerance of np.isclose) or when the mandatory level gives no pressure, one above 1060 hPa or one below that of the first mandatory level with temperature and height; its height is the elevation of the station; its wind is that of the first significant wind by pressure at the same pressure, or else of the first mandatory level.", "quantifier": "all reports with any numbers in any parts, any number of levels, any missing value", "why_tests_cant": "The surface is put together from three parts under conditions on missing values and nearness, and nine later steps can change it. Tests compare a few soundings.", "anchors": ["src/gempakio/decode/gempak.py: GempakSounding._merge_sounding, GempakSounding.snxarray"]}
{"id": "C128", "title": "The bytes of a saved file do not depend on the order of the calls", "statement": "Two files made with the same arguments, to which the same reports (soundings, grids) for different times, stations or names are added in different orders, are byte for byte the same after to_gempak; every order succeeds or fails alike. More generally the bytes are settled by what was accepted last for every time and station (or name, level and time of a grid): calls that raised on their arguments and calls replaced by later ones leave no trace.", "quantifier": "all lists of calls of any length within the limit of headers, all values, all orders of the calls, both byte orders, coordinates that are numbers in order (not NaN)", "why_tests_cant": "The headers are kept in sets and dictionaries in order of insertion and sorted as tuples at every call; that no trace of the insertion order survives the sort, for all lists and ties, is a statement about all permutations.", "anchors": ["src/gempakio/encode/gempak.py: SurfaceFile.add_station, SoundingFile.add_sounding, GridFile.add_grid, DataManagementFile.to_gempak"]}
{"id": "C129", "title": "Narrower queries return part of the results", "statement": "When sfjson, snxarray or gdxarray answers a query, then every query with further criteria, fewer values or a smaller box returns part of these results in the same order, or raises KeyError because nothing in the list of the file satisfies it; no other error is possible. A query for several stations, numbers, times, parameters or levels returns exactly what the queries for each of them return. A wide query finds nothing only if no narrower one finds anything.", "quantifier": "all files that can be opened (readable as a whole or not), all pairs of queries of which one is narrower, all lists of values", "why_tests_cant": "It relates the results of two different calls for every pair of queries, also on files parts of which cannot be read, where an error must not depend on what else is asked for.", "anchors": ["src/gempakio/decode/gempak.py: GempakSurface.sfjson, GempakSounding.snxarray, GempakGrid.gdxarray"]}
{"id": "C130", "title": "A damaged record disturbs nothing else", "statement": "Whatever becomes of the records of some grids, reports or soundings of a file, as long as it keeps its label, its headers and its pointers, it opens, gdinfo, sfinfo and sninfo list the same, and gdxarray, sfjson and snxarray answer every query that asks for none of the damaged records exactly as before, errors included.", "quantifier": "all files that can be opened whose structure is placed before the records, all changes of other bytes, all queries, both byte orders", "why_tests_cant": "It compares readings of two files that differ in arbitrary bytes; a reader that looks past the record it is asked for is only seen with the right damage in the right place.", "anchors": ["src/gempakio/decode/gempak.py: GempakFile.__init__, GempakGrid.gdxarray, GempakSurface.sfjson, GempakSounding.snxarray"]}
{"id": "C131", "title": "Vector graphic files can be joined and appended to", "statement": "VectorGraphicFile on the bytes of several complete files one after another has the elements of the first, then those of the second, and so on, each with all its attributes; when anything is appended to a complete file and the result opens, the elements of the file come first and are as they were. No record has a part in what is read from another one.", "quantifier": "all lists of files made of complete records of any of the kinds, all bytes appended", "why_tests_cant": "Records are read by a cursor that goes on where the last read left it, with tables of fixed and stated sizes; a reader that is off by a few bytes, or looks at what follows, is only seen for the right pair of kinds.", "anchors": ["src/gempakio/decode/vgf.py: VectorGraphicFile, _decode_elements"]}
{"id": "C132", "title": "The order and case of the values asked for do not matter", "statement": "Two queries that name the same values for each criterion, in another order, some of them more than once, or texts in another case, get the same answer from gdxarray, sfjson, snxarray and nearest_time: the same entries in the same order, or the same exception.", "quantifier": "all opened files, all pairs of queries that name the same values, all times and levels, also the earliest and latest ones", "why_tests_cant": "It relates two calls for every pair of equivalent queries on every file; tests compare a few queries with fixed results.", "anchors": ["src/gempakio/decode/gempak.py: GempakGrid.gdxarray, GempakSurface.sfjson, GempakSurface.nearest_time, GempakSounding.snxarray"]}
{"id": "C133", "title": "Adding a report or a sounding leaves the others as they were", "statement": "When a surface or sounding file is saved after one more add_station or add_sounding call, sfjson or snxarray return what they return for the file saved without it, and one entry more, that of the call; if the call is for a time and place there is an entry of, that entry alone is replaced; if the call is refused, nothing changes.", "quantifier": "all histories of calls, accepted or refused, all further calls, both byte orders of both files", "why_tests_cant": "It compares two files of every size: one more header moves every record and every pointer of the file, and one more row or column makes cells for all others.", "anchors": ["src/gempakio/encode/gempak.py: SurfaceFile.add_station, SoundingFile.add_sounding, to_gempak; src/gempakio/decode/gempak.py: GempakSurface.sfjson, GempakSounding.snxarray"]}
