{"id": "C01", "title": "BIFF12 record stream round-trip", "statement": "Writing any sequence of records with record.as_binary()/dump() and reading the concatenated bytes with scan_biff() yields exactly the same records (ids and payloads) in the same order, for every record whose id is encodable (below 0x80, or below 0x10000 with bit 0x80 set) and whose payload is shorter than 2^29 bytes.", "quantifier": "all finite lists of records, all payload sizes below 2^29, all encodable ids", "why_tests_cant": "payload lengths cross four varint size classes and record lists are unbounded; tests pick three lengths", "anchors": ["rxls/biff.py::record.as_binary", "rxls/biff.py::scan_biff", "rxls/biff.py::dump_sz"]}
{"id": "C02", "title": "as_binary fails exactly on unencodable records", "statement": "record.as_binary() raises struct.error exactly when the id is not encodable (no 0x80 bit and above 0xFF, or 0x80 bit and above 0xFFFF) or the payload is 2^29 bytes or longer; it never silently emits bytes for such a record. When it succeeds the output is id field, size field, payload, and dump() returns the stream position advanced by exactly that many bytes.", "quantifier": "all records (any natural id, any payload length)", "why_tests_cant": "the failing region is unbounded and the boundary is at half a gigabyte", "anchors": ["rxls/biff.py::record.as_binary", "rxls/biff.py::record.dump"]}
{"id": "C03", "title": "Truncation at any byte yields exactly the complete records", "statement": "If a stream of valid records is cut at any byte position, scan_biff() yields exactly those leading records that lie wholly before the cut, raises nothing and yields no partial record.", "quantifier": "all record lists and every cut position", "why_tests_cant": "every crash point of every stream; tests cut nowhere", "anchors": ["rxls/biff.py::scan_biff"]}
{"id": "C04", "title": "The `only` filter selects a subsequence and nothing else", "statement": "For every byte stream (well formed or not) and every non-empty id set, scan_biff(io, only) yields exactly the records of scan_biff(io) whose id is in the set, in order; with None or an empty set the plain scanner yields every record.", "quantifier": "all byte strings, all filters", "why_tests_cant": "skipping uses seek rather than read, so agreement must hold for malformed and truncated streams too", "anchors": ["rxls/biff.py::scan_biff"]}
{"id": "C05", "title": "Accelerated scanner agrees with the plain scanner at every block boundary", "statement": "When numba is installed scan_biff reads the stream in fixed blocks and re-assembles records cut by a block boundary. For every stream of complete records with ids below 0x8000, every block size and every filter that is None or non-empty, it yields exactly what the plain scanner yields.", "quantifier": "all record lists, all block sizes >= 1, all filters", "why_tests_cant": "record/block alignment has unboundedly many configurations", "anchors": ["rxls/biff.py::scan_chunk", "rxls/biff.py::scan_biff"]}
{"id": "C06", "title": "Scanning terminates on every input", "statement": "Exhausting scan_biff() on any finite byte stream terminates. (The accelerated variant is expected to do so too, including on a stream that ends in the middle of a record.)", "quantifier": "all byte strings, both implementations", "why_tests_cant": "non-termination cannot be observed by a finite test", "anchors": ["rxls/biff.py::scan_biff", "rxls/biff.py::scan_chunk"]}
{"id": "C07", "title": "Record size field is an injective, prefix-free code", "statement": "dump_sz(i) is defined exactly for 0 <= i < 2^29, uses 1..4 bytes, is the shortest size class, and no encoding is a prefix of a different encoding; as_binary() embeds exactly dump_sz(len(data)).", "quantifier": "all pairs of sizes", "why_tests_cant": "quantifies over pairs from half a billion values", "anchors": ["rxls/biff.py::dump_sz", "rxls/biff.py::record.as_binary"]}
{"id": "C08", "title": "Record name table is a bijection into encodable ids", "statement": "For every name in BIFF_ENUM, record.from_data(name, ...) produces a record whose rec_name is that same name, whose data is the concatenation of the parts, and which survives as_binary()/scan_biff().", "quantifier": "all 845 names and all payload parts", "why_tests_cant": "the table is large and the payload is arbitrary", "anchors": ["rxls/biff_enum.py::BIFF_ENUM", "rxls/biff_enum.py::BIFF_ENUM_REVERSED", "rxls/biff.py::record.from_data", "rxls/biff.py::record.rec_name"]}
{"id": "C09", "title": "Wide strings are decoded exactly", "statement": "xstr.load()/from_binary() on a length-prefixed UTF-16LE string returns that string and load() leaves the stream exactly after it, for every Unicode string that does not begin with U+FEFF or U+FFFE; the all-ones length gives the null string; ill-formed UTF-16 is rejected with UnicodeDecodeError rather than decoded to something else.", "quantifier": "all Unicode strings and all trailing bytes; all unit sequences for the rejection part", "why_tests_cant": "surrogate pairs and BOM handling interact with arbitrary text", "anchors": ["rxls/biff_recs.py::xstr.load", "rxls/biff_recs.py::xstr.from_binary"]}
{"id": "C10", "title": "xstr.dump followed by xstr.load is the identity", "statement": "A string written by xstr.dump() is read back unchanged by xstr.load() on the same stream.", "quantifier": "all Unicode strings", "why_tests_cant": "needs every string; the code writes a byte-order mark but not its length", "anchors": ["rxls/biff_recs.py::xstr.dump", "rxls/biff_recs.py::xstr.load"]}
{"id": "C11", "title": "Sheet bundle record parsing", "statement": "BrtBundleSh.loadr() on a record whose payload is state, tab id, relation id and name (MS-XLSB layout) returns exactly these four fields, whatever bytes follow.", "quantifier": "all field values and all trailing bytes", "why_tests_cant": "unbounded strings", "anchors": ["rxls/biff_recs.py::BrtBundleSh.loadr"]}
{"id": "C12", "title": "Relationship type is the last path segment", "statement": "For a relationship written with dump_xml and scanned with scan_xml the Type read back equals the Type written exactly when it contains no '/'; Id and Target survive exactly when they contain no character XML would re-interpret.", "quantifier": "all strings", "why_tests_cant": "unbounded strings", "anchors": ["rxls/rels.py::Relationship.scan_xml", "rxls/rels.py::Relationship.dump_xml"]}
{"id": "C13", "title": "Column letters map to column numbers", "statement": "A cell reference made of the spreadsheet name of column n (A..Z, AA, AB, ...) followed by any row digits is assigned column index n; distinct columns get distinct indices.", "quantifier": "all column numbers and all row suffixes", "why_tests_cant": "unbounded bijective base-26 numeration", "anchors": ["rxls/reader/xlsx.py::col_idx"]}
{"id": "C14", "title": "RK number decoding follows MS-XLSB", "statement": "rk_to_f8 decodes each of the 2^32 RK words as specified: bit 1 selects a signed 30-bit integer or the top 30 bits of a double, bit 0 divides the value by 100 (correctly rounded); arrays are decoded element-wise.", "quantifier": "all 32-bit words, arrays of any length", "why_tests_cant": "2^32 words times any array length", "anchors": ["rxls/chunk/casts.py::rk_to_f8"]}
{"id": "C15", "title": "Integer to RK and back", "statement": "rk_to_f8(i8_to_rk(n)) equals n exactly when -2^29 <= n < 2^29; outside it is n reduced to the signed 30-bit range.", "quantifier": "all 64-bit integers", "why_tests_cant": "2^64 inputs; exact boundary", "anchors": ["rxls/chunk/casts.py::i8_to_rk", "rxls/chunk/casts.py::rk_to_f8"]}
{"id": "C16", "title": "Double to RK and back", "statement": "rk_to_f8(f8_to_rk(x)) returns x for every x that an RK number can represent.", "quantifier": "all doubles representable as RK", "why_tests_cant": "2^32 representable doubles and rounding inside the encoder", "anchors": ["rxls/chunk/casts.py::f8_to_rk", "rxls/chunk/casts.py::rk_to_f8"]}
{"id": "C17", "title": "Whole-day serials become the right calendar day", "statement": "A temporal cell holding whole-day serial n is converted to the exact UTC midnight of the day Excel shows: serial 1 is 1900-01-01, serial 61 is 1900-03-01, successive serials are successive days, with no floating point error, for every serial up to ten million.", "quantifier": "all whole serials 1 <= n <= 10^7 except the fictitious day 60", "why_tests_cant": "millions of dates with rounding in three float operations", "anchors": ["rxls/chunk/casts.py::f8_to_ms_win"]}
{"id": "C18", "title": "Fractional serials convert to within one millisecond", "statement": "For every finite serial in the Excel range the produced timestamp differs from the exact value (serial minus epoch offset, times 86 400 000) by less than one millisecond plus the float rounding error (below 0.02 ms), and a serial below 1 stays within the first day of 1970.", "quantifier": "all doubles in [0, 2958466)", "why_tests_cant": "~2^62 doubles; truncation and two roundings", "anchors": ["rxls/chunk/casts.py::f8_to_ms_win"]}
{"id": "C19", "title": "Timestamps round-trip through Excel serials to the millisecond", "statement": "A timestamp with whole-millisecond value written by Excel as the nearest double serial is read back as the same millisecond.", "quantifier": "all millisecond timestamps after 1970-01-02", "why_tests_cant": "needs all timestamps; the code truncates after rounding", "anchors": ["rxls/chunk/casts.py::f8_to_ms_win", "rxls/chunk/casts.py::ms_to_f8_win"]}
{"id": "C20", "title": "Conversion to timestamps is monotone on each epoch segment", "statement": "Within [0,1), [1,60) and [60, 2958466) a larger serial never produces an earlier timestamp; across the boundaries 1 and 60 it can (and the exact drop is known).", "quantifier": "all pairs of doubles", "why_tests_cant": "pairs of doubles", "anchors": ["rxls/chunk/casts.py::f8_to_ms_win"]}
{"id": "C21", "title": "ms_to_f8_win inverts f8_to_ms_win on whole days", "statement": "Converting a whole-day serial to a timestamp and back gives the same serial exactly for serials <= 0 and serials >= 25570 (1970-01-02 onwards).", "quantifier": "all whole serials with |n| <= 10^7", "why_tests_cant": "the conversion has three regimes and float division", "anchors": ["rxls/chunk/casts.py::ms_to_f8_win", "rxls/chunk/casts.py::f8_to_ms_win"]}
{"id": "C22", "title": "Integer detection loses no information beyond the requested precision", "statement": "A numeric column is delivered as int64 only if every value equals its truncation after rounding to float_precision digits; every delivered integer is then the truncation of the value and within half a unit of the last kept digit (up to float rounding) of it, for values inside the int64 range.", "quantifier": "all arrays of doubles, all precisions up to 15", "why_tests_cant": "arrays of any length of arbitrary doubles", "anchors": ["rxls/chunk/casts.py::f8_is_i8", "rxls/chunk/chunk.py::chunk.concatenate"]}
{"id": "C23", "title": "Multi-format string to timestamp parsing", "statement": "mf_strptime gives each string the value of the first format that recognises it, independently of the other strings in the column, and raises ArrowInvalid exactly when some string is recognised by no format.", "quantifier": "all string arrays, all format lists, all strptime behaviours", "why_tests_cant": "element-wise early exit couples elements; 0 doubles as 'not parsed'", "anchors": ["rxls/chunk/casts.py::mf_strptime", "rxls/chunk/casts.py::_strptime"]}
{"id": "C24", "title": "Bit mask unpacking", "statement": "_unsafe_bool_arrow_to_numpy returns element i equal to bit i of the Arrow mask.", "quantifier": "all masks of all lengths", "why_tests_cant": "unbounded masks; wrong only above one byte", "anchors": ["rxls/chunk/casts.py::_unsafe_bool_arrow_to_numpy"]}
{"id": "C25", "title": "Null-chunk slicing has Python slice length", "statement": "Slicing a null chunk of n cells yields a null chunk whose length is the length Python's slice would give on a list of n elements.", "quantifier": "all n and all slices with positive step", "why_tests_cant": "arbitrary bounds, including 0, negative and past-the-end", "anchors": ["rxls/chunk/chunk.py::null_slice", "rxls/chunk/chunk.py::chunk.take"]}
{"id": "C26", "title": "chunk.take selects the denoted cells", "statement": "chunk.take(slice) and chunk.take(mask) return a chunk whose cells are exactly the selected cells of the original, with the same type, and whose size is the number of cells.", "quantifier": "all chunks of every representation, all in-range slices and masks", "why_tests_cant": "six representations, unbounded length", "anchors": ["rxls/chunk/chunk.py::chunk.take"]}
{"id": "C27", "title": "Row windowing by offset and length", "statement": "For every list of chunks, take_over(offset, length) with length > 0 yields chunks whose cells are exactly rows offset .. offset+length-1 of the column, padded with nulls to exactly length rows; with length = 0 and offset > 0 it yields every row from offset on.", "quantifier": "all chunk lists, all offsets, all lengths", "why_tests_cant": "chunk boundaries versus window boundaries: unbounded combinations", "anchors": ["rxls/chunk/chunk.py::chunk.take_over"]}
{"id": "C28", "title": "Row filtering by mask keeps alignment", "statement": "For every list of chunks and every boolean mask, take_over(offset, index=mask) yields exactly the cells at the rows where the mask is true, in order, nulls where the column has ended; two columns filtered with the same mask stay row-aligned.", "quantifier": "all chunk lists, all masks, all offsets", "why_tests_cant": "chunk boundaries versus mask runs", "anchors": ["rxls/chunk/chunk.py::chunk.take_over"]}
{"id": "C29", "title": "Column materialisation preserves length and nulls", "statement": "concatenate() returns one array with exactly one element per cell of the selected window, and every empty cell is a null in it, whatever types are mixed and whatever conversions are enabled.", "quantifier": "all chunk lists, all flags, all conversion outcomes", "why_tests_cant": "the product of representations, flags and conversion failures", "anchors": ["rxls/chunk/chunk.py::chunk.concatenate"]}
{"id": "C30", "title": "Column type decision", "statement": "The resulting type depends only on which kinds of cells occur and which conversions succeed: only strings or empty -> large_string; only numbers -> int64 if all integral at the precision else float64; only temporal -> timestamp; temporal mixed with others -> timestamp iff datetime resolution is on and every string converts; numbers with strings -> numeric iff numeric resolution is on and every string converts; otherwise large_string.", "quantifier": "all chunk lists, all flags", "why_tests_cant": "all mixtures and failure patterns", "anchors": ["rxls/chunk/chunk.py::chunk.concatenate"]}
{"id": "C31", "title": "Unresolved conflicts keep the original text", "statement": "When a mixed column cannot be resolved and falls back to strings, each string cell appears with its original text and each number with its own text rendering.", "quantifier": "all mixed columns and all flags", "why_tests_cant": "failure may occur after some chunks were already converted", "anchors": ["rxls/chunk/chunk.py::chunk.concatenate"]}
{"id": "C32", "title": "Reading a column is observationally pure", "statement": "Calling to_utf8/to_arrow on a column any number of times, with any windows, does not change the result of any later call.", "quantifier": "all histories of calls", "why_tests_cant": "histories; preparation mutates chunks in place", "anchors": ["rxls/series.py::xl_series.to_utf8", "rxls/series.py::xl_series.to_arrow", "rxls/chunk/chunk.py::chunk.prepare"]}
{"id": "C33", "title": "Column builder places every cell at its row", "statement": "After adding any sequence of cells, the column denotes exactly: at each row the first cell added for it among cells arriving in increasing row order, null elsewhere, with total height last row + 1; cells of different type are never merged into one chunk and the value bytes are kept verbatim.", "quantifier": "all sequences of add() calls", "why_tests_cant": "histories of adds", "anchors": ["rxls/series.py::xl_series.add", "rxls/series.py::xl_series.__pull_chunk"]}
{"id": "C34", "title": "Re-adding a row is ignored", "statement": "A cell whose row is not beyond the last row of the column changes nothing observable.", "quantifier": "all histories and all cells", "why_tests_cant": "histories", "anchors": ["rxls/series.py::xl_series.add"]}
{"id": "C35", "title": "len(column) covers every row of the column", "statement": "len(xl_series) equals the number of rows the column spans from the first sheet row to its last cell, which is what read() relies on to size the table.", "quantifier": "all histories", "why_tests_cant": "depends on where the first cell falls", "anchors": ["rxls/series.py::xl_series.__len__", "rxls/reader/common.py::read"]}
{"id": "C36", "title": "Fixed-width cell payloads never bleed", "statement": "When every cell payload has the width of its representation, joining payloads and re-interpreting the buffer gives each cell its own value; if the total number of bytes is not a multiple of the width the chunk is rejected with ValueError.", "quantifier": "all lists of payloads", "why_tests_cant": "unbounded lists, byte-level", "anchors": ["rxls/chunk/casts.py::_unsafe_data_to_array", "rxls/chunk/casts.py::_unsafe_data_to_arrow", "rxls/chunk/chunk.py::chunk.xlsb_numeric"]}
{"id": "C37", "title": "XLSB rows and cells are delivered in place", "statement": "Iterating an XLSB sheet with no row limits yields, for every row record in order, every supported cell record of that row exactly once, with its column, the right type tags and its own payload bytes, with row numbers counting the row records (all of them, or only the non-empty ones, according to take_rows_non_empty).", "quantifier": "all record streams", "why_tests_cant": "unbounded sheets, all mixes of records", "anchors": ["rxls/reader/xlsb.py::XlsbWorkbook.iter_worksheet"]}
{"id": "C38", "title": "skip_rows drops exactly the leading rows", "statement": "With skip_rows = k and no take_rows, the reader delivers exactly the cells of rows k, k+1, ... renumbered from 0.", "quantifier": "all sheets, all k", "why_tests_cant": "needs all sheets and k; interplay with take_rows and empty-row tracking", "anchors": ["rxls/reader/xlsb.py::XlsbWorkbook.iter_worksheet", "rxls/reader/xlsx.py::XlsxWorkbook.iter_worksheet"]}
{"id": "C39", "title": "take_rows stops after the requested row", "statement": "With take_rows = t > 0 and skip_rows = 0 the reader delivers exactly the cells of rows 0..t (0-based, inclusive as documented) of what it would deliver without the limit.", "quantifier": "all sheets, all t", "why_tests_cant": "unbounded", "anchors": ["rxls/reader/xlsb.py::XlsbWorkbook.iter_worksheet", "rxls/reader/xlsx.py::XlsxWorkbook.iter_worksheet"]}
{"id": "C40", "title": "skip_cols removes exactly those columns", "statement": "With skip_cols, the delivered cells are exactly those of the unrestricted read whose column is not listed, provided that no row becomes empty; rows keep their numbers.", "quantifier": "all sheets, all column lists", "why_tests_cant": "unbounded", "anchors": ["rxls/reader/xlsb.py::XlsbWorkbook.iter_worksheet", "rxls/reader/xlsx.py::XlsxWorkbook.iter_worksheet"]}
{"id": "C41", "title": "Row callback count", "statement": "The number of row_callback calls is determined by the rows read: XLSB one per row record at or after skip_rows plus one at end of sheet data; XLSX one at the start plus one per row element.", "quantifier": "all sheets", "why_tests_cant": "unbounded", "anchors": ["rxls/reader/xlsb.py::XlsbWorkbook.iter_worksheet", "rxls/reader/xlsx.py::XlsxWorkbook.iter_worksheet"]}
{"id": "C42", "title": "XLSX rows and cells are delivered in place", "statement": "Iterating an XLSX sheet whose rows contain cells with one value text each yields every non-blank, non-null cell exactly once with the column of its reference, its row number, its type tag and its text.", "quantifier": "all sheets as XML event streams", "why_tests_cant": "unbounded sheets", "anchors": ["rxls/reader/xlsx.py::XlsxWorkbook.iter_worksheet"]}
{"id": "C43", "title": "XLSX and XLSB agree on row numbers", "statement": "The same logical sheet stored as XLSX and as XLSB is delivered with the same row numbers for the same take_rows_non_empty setting.", "quantifier": "all logical sheets", "why_tests_cant": "relates two implementations on all sheets", "anchors": ["rxls/reader/xlsx.py::XlsxWorkbook.iter_worksheet", "rxls/reader/xlsb.py::XlsbWorkbook.iter_worksheet"]}
{"id": "C44", "title": "Background parsing delivers every cell in order under every schedule", "statement": "For every interleaving of the XLSX parser thread and the consumer, the consumer receives exactly the cells the parser produced, in order, then stops; it never deadlocks.", "quantifier": "all schedules, all cell sequences", "why_tests_cant": "schedules", "anchors": ["rxls/reader/xlsx.py::XlsxWorkbook.iter_worksheet"]}
{"id": "C45", "title": "A failing XLSX parse is reported", "statement": "If the sheet XML is malformed or a handler raises, read() raises instead of returning a truncated table.", "quantifier": "all sheets and all failure points", "why_tests_cant": "every failure point", "anchors": ["rxls/reader/xlsx.py::XlsxWorkbook.iter_worksheet"]}
{"id": "C46", "title": "Shared string table is index-aligned", "statement": "The i-th shared string element is entry i of the table, for XLSX (one entry per si element whatever it contains) and for XLSB (one entry per SST item).", "quantifier": "all shared string parts", "why_tests_cant": "unbounded tables, nested markup", "anchors": ["rxls/reader/xlsx.py::XlsxWorkbook.shared", "rxls/reader/xlsb.py::XlsbWorkbook.shared"]}
{"id": "C47", "title": "Shared strings keep their whole text", "statement": "A shared string made of several rich-text runs is read as the concatenation of its runs.", "quantifier": "all shared strings", "why_tests_cant": "all run structures", "anchors": ["rxls/reader/xlsx.py::XlsxWorkbook.shared"]}
{"id": "C48", "title": "Error texts and null_values become nulls", "statement": "A text cell is dropped exactly when its text is one of the spreadsheet error strings or satisfies null_values, in both file formats, and whether or not the text is stored in the shared string table.", "quantifier": "all texts, all predicates", "why_tests_cant": "all strings and predicates; two formats", "anchors": ["rxls/reader/xlsx.py::XlsxWorkbook.__init__", "rxls/reader/xlsb.py::XlsbWorkbook.__init__", "rxls/reader/xlsx.py::XlsxWorkbook.iter_worksheet", "rxls/reader/xlsb.py::XlsbWorkbook.iter_worksheet"]}
{"id": "C49", "title": "Date-format detection ignores literals", "statement": "A custom number format is treated as temporal exactly when, outside quoted literals, bracketed sections other than [h] [hh] [m] [mm] [s] [ss] and backslash-escaped characters, it contains one of d m h y s in either case.", "quantifier": "all format strings", "why_tests_cant": "all strings; regex with lookaround", "anchors": ["rxls/reader/xlsx.py::re_dt", "rxls/reader/xlsx.py::re_xt", "rxls/reader/xlsx.py::XlsxWorkbook.styles", "rxls/reader/xlsb.py::XlsbWorkbook.styles"]}
{"id": "C50", "title": "XLSX style classification", "statement": "A cell style is temporal/numeric according to its number format: the i-th cell xf gets the class of its numFmt (custom via its code, built-in via the fixed id lists), numeric winning over temporal.", "quantifier": "all style sheets", "why_tests_cant": "all mixtures of custom and built-in formats", "anchors": ["rxls/reader/xlsx.py::XlsxWorkbook.styles"]}
{"id": "C51", "title": "XLSB style classification", "statement": "An XLSB cell xf is temporal exactly when its number format id is a built-in date format or a custom format whose code is temporal.", "quantifier": "all style sheets", "why_tests_cant": "all format ids and codes", "anchors": ["rxls/reader/xlsb.py::XlsbWorkbook.styles"]}
{"id": "C52", "title": "Sheet selection", "statement": "A sheet given by index i is the i-th sheet in workbook order, a sheet given by name is the sheet of that name; out-of-range index raises IndexError and unknown name raises KeyError.", "quantifier": "all workbooks, all indices and names", "why_tests_cant": "unbounded", "anchors": ["rxls/reader/xlsx.py::XlsxWorkbook.sheets", "rxls/reader/xlsb.py::XlsbWorkbook.sheets", "rxls/reader/xlsx.py::XlsxWorkbook.iter_worksheet", "rxls/reader/xlsb.py::XlsbWorkbook.iter_worksheet"]}
{"id": "C53", "title": "Multi-row header composition", "statement": "With a header of height h > 1, each column name is the ', '-join of its non-empty header cells after filling the cells above its topmost non-empty cell from the nearest column to the left that has any header cell; a column with no header cell is 'Unnamed'.", "quantifier": "all header grids", "why_tests_cant": "all grids of any size", "anchors": ["rxls/reader/common.py::__make_header"]}
{"id": "C54", "title": "Column names are unique", "statement": "The column names produced from a header are pairwise distinct.", "quantifier": "all header grids", "why_tests_cant": "all grids", "anchors": ["rxls/reader/common.py::__make_header"]}
{"id": "C55", "title": "Header lookup", "statement": "lookup_head by column finds the first non-empty row of that column within the lookup window; by pattern it finds the first matching row in the first column (in reading order) with a match; if there is none read() raises ValueError.", "quantifier": "all columns, all match outcomes", "why_tests_cant": "unbounded", "anchors": ["rxls/reader/common.py::__find_header"]}
{"id": "C56", "title": "Row filter combination", "statement": "With strategy 'or' ('and') a row is kept iff some (every) filter column is non-null there; with an operator list the operators are applied left to right; exactly the rows kept appear in every output column.", "quantifier": "all filter lists, all strategies", "why_tests_cant": "unbounded", "anchors": ["rxls/reader/common.py::read"]}
{"id": "C57", "title": "The table is rectangular", "statement": "Every column of the returned table has the same number of rows: the number of data rows, or the number of rows kept by the filter.", "quantifier": "all sheets, all parameters with at least one data row", "why_tests_cant": "all sheets", "anchors": ["rxls/reader/common.py::read"]}
{"id": "C58", "title": "No cell is lost", "statement": "Every cell the reader delivers at or after the first data row appears in the returned table, at its row and in its column, when no filter is given.", "quantifier": "all sheets", "why_tests_cant": "depends on the relative position of all columns", "anchors": ["rxls/reader/common.py::read", "rxls/series.py::xl_series.__len__"]}
{"id": "C59", "title": "File kind detection", "statement": "A package with xl/workbook.xml is read as XLSX, otherwise one with xl/workbook.bin as XLSB, otherwise AssertionError; nothing else in the package matters for the choice.", "quantifier": "all archive listings", "why_tests_cant": "all listings", "anchors": ["rxls/reader/common.py::read"]}
{"id": "C60", "title": "Header argument validation", "statement": "An explicit header list is used verbatim and must have exactly one name per non-empty column, otherwise ValueError; without header the columns are named by position.", "quantifier": "all columns and headers", "why_tests_cant": "unbounded", "anchors": ["rxls/reader/common.py::read"]}
{"id": "C61", "title": "dtypes overrides are applied to the right columns", "statement": "A single dtype is applied to every column, a mapping to exactly the columns whose name is listed, a sequence positionally (length mismatch raises ValueError); a failing cast raises ValueError; columns already of that type are unchanged.", "quantifier": "all tables, all dtype arguments, all cast behaviours", "why_tests_cant": "unbounded", "anchors": ["rxls/reader/common.py::read"]}
{"id": "C62", "title": "End-to-end XLSB bytes to table", "statement": "For an XLSB sheet part built from any grid of typed cells, scanning its bytes, building columns and materialising them yields a table whose cell at (row, column) is the decoded value of the grid cell, and null elsewhere.", "quantifier": "all grids", "why_tests_cant": "composition of every stage on unbounded input", "anchors": ["rxls/biff.py::scan_biff", "rxls/reader/xlsb.py::XlsbWorkbook.iter_worksheet", "rxls/series.py::xl_series.add", "rxls/chunk/chunk.py::chunk.concatenate", "rxls/reader/common.py::read"]}
{"id": "C63", "title": "End-to-end XLSX parts to table, all arguments", "statement": "Reading an XLSX file whose parts hold a grid of cells, with any header, lookup, filter, type, row and column arguments, raises ValueError if the rows and columns asked for have no value, and otherwise gives the table of their values: each shared string, text, number or date where the grid has it and null elsewhere.", "quantifier": "all XLSX packages holding a grid, all grids, all arguments", "why_tests_cant": "composition of every stage on unbounded input", "anchors": ["rxls/reader/xlsx.py::XlsxWorkbook.iter_worksheet", "rxls/reader/xlsx.py::XlsxWorkbook.styles", "rxls/reader/xlsx.py::XlsxWorkbook.shared", "rxls/series.py::xl_series.add", "rxls/reader/common.py::read"]}
{"id": "C64", "title": "End-to-end XLSB bytes to table, all arguments", "statement": "The same as C63 for the bytes of an XLSB file, with any row and column arguments.", "quantifier": "all XLSB packages holding a grid, all grids, all arguments", "why_tests_cant": "composition of every stage on unbounded input", "anchors": ["rxls/biff.py::scan_biff", "rxls/reader/xlsb.py::XlsbWorkbook.iter_worksheet", "rxls/reader/common.py::read"]}
{"id": "C65", "title": "A workbook gives the same table as XLSX and as XLSB", "statement": "If the same values are stored in an XLSX and in an XLSB file, reading both with the same arguments gives the same table or the same exception.", "quantifier": "all pairs of files with the same values, all arguments", "why_tests_cant": "quantifies over all workbooks in both encodings", "anchors": ["rxls/reader/xlsx.py::XlsxWorkbook.iter_worksheet", "rxls/reader/xlsb.py::XlsbWorkbook.iter_worksheet", "rxls/reader/common.py::read"]}
{"id": "C66", "title": "skip_rows skips rows", "statement": "read(skip_rows=k) gives the table of the rows from row k on.", "quantifier": "all files, all k", "why_tests_cant": "unbounded", "anchors": ["rxls/reader/common.py::read", "rxls/reader/xlsx.py::XlsxWorkbook.iter_worksheet", "rxls/reader/xlsb.py::XlsbWorkbook.iter_worksheet"]}
{"id": "C67", "title": "Optional parts may be missing", "statement": "A file without shared strings or styles part can be read if no cell refers to them.", "quantifier": "all files, all arguments", "why_tests_cant": "all package shapes", "anchors": ["rxls/reader/xlsx.py::XlsxWorkbook.shared", "rxls/reader/xlsb.py::XlsbWorkbook.shared"]}
{"id": "C68", "title": "Conflict resolution keeps the meaning of every cell", "statement": "With conflict_resolve set, a column of numbers and numeric texts becomes the numbers, a column of dates and numbers becomes dates, and any other mixed column is returned as the unchanged texts of its cells; reading never fails because of it.", "quantifier": "all sheets, all columns, all four modes, all arguments", "why_tests_cant": "every arrangement of runs of numbers, dates and texts in a column", "anchors": ["rxls/reader/common.py::read", "rxls/chunk/chunk.py::chunk.concatenate", "rxls/series.py::xl_series.to_arrow"]}
{"id": "C69", "title": "read maps its arguments to the right reader and options", "statement": "read chooses the reader by the workbook part in the archive, refuses other archives, makes the null test from null_values and the error texts, the resolution flags from conflict_resolve, the format list from datetime_formats, and returns the table of the sheet asked for.", "quantifier": "all archives, all arguments", "why_tests_cant": "all combinations of archive content and arguments", "anchors": ["rxls/reader/common.py::read", "rxls/series.py::xl_series.__init__", "rxls/reader/xlsx.py::XlsxWorkbook.__init__", "rxls/reader/xlsb.py::XlsbWorkbook.__init__"]}
{"id": "C70", "title": "Detection of date and time parts", "statement": "dt_has_t(arr) is true exactly when some timestamp of arr is not a midnight, and dt_has_d(arr) is true exactly when some timestamp lies outside 1970-01-01, the day on which bare times are stored.", "quantifier": "for all arrays of millisecond timestamps up to 2^53 in magnitude", "why_tests_cant": "Sign, boundary (exactly one day) and float promotion of int64 % uint64 over the whole range.", "anchors": ["rxls/chunk/casts.py:183-216"]}
{"id": "C71", "title": "Accelerated RK encoder agrees with the plain one", "statement": "The guvectorize version of f8_to_rk gives the same words as the numpy version.", "quantifier": "for all doubles, including NaN and infinities", "why_tests_cant": "The two versions are never installed side by side, and they differ only outside the int32 range.", "anchors": ["rxls/chunk/casts.py:140-154", "rxls/chunk/casts.py:258-276"]}
{"id": "C72", "title": "Printed records and record numbers", "statement": "record.__repr__ shows the record number of MS-XLSB (the 7-bit groups of the id field), the table of names agrees with the numbers of the standard, and the printed text determines the record.", "quantifier": "for all ids of at most two bytes and all records", "why_tests_cant": "All 845 names, all ids, and injectivity of a text form.", "anchors": ["rxls/biff.py:61-69", "rxls/biff_enum.py"]}
{"id": "C73", "title": "Compiled column letters", "statement": "The numba version of col_idx gives the same column number as the plain one.", "quantifier": "for all cell references whose column is below 2^31", "why_tests_cant": "Wrap-around of int64 and int32 intermediate values for any text.", "anchors": ["rxls/reader/xlsx.py:66-79"]}
{"id": "C74", "title": "Unknown records do not disturb an XLSB sheet", "statement": "Records other than rows, cells and end of data, with any content and in any place, do not change what is read from a sheet.", "quantifier": "for all record streams and all reader arguments", "why_tests_cant": "Any number of records of any content anywhere.", "anchors": ["rxls/reader/xlsb.py:217-228", "rxls/biff.py::scan_biff"]}
{"id": "C75", "title": "Compiled code reads the same table", "statement": "Where numba is installed, `read` uses a compiled record scanner and a compiled column parser. With them it returns, and returns the same table or error as without them.", "quantifier": "for all packages, both formats, and all arguments of `read`", "why_tests_cant": "Both variants cannot be installed at once, and the claim is over all packages and arguments.", "anchors": ["rxls/biff.py:110-245", "rxls/reader/xlsx.py::col_idx", "rxls/reader/common.py::read"]}
{"id": "C76", "title": "Relationship targets name the sheet parts", "statement": "The part read for a sheet is the one that the package standard assigns to the target of the sheet's relationship.", "quantifier": "for all relationship targets and all workbooks of both formats", "why_tests_cant": "Targets have unboundedly many spellings: relative, absolute, with dot segments.", "anchors": ["rxls/reader/xlsx.py:128-152", "rxls/reader/xlsb.py:101-121"]}
{"id": "C77", "title": "Only the meaning of the markup counts", "statement": "The table read from an XLSX file does not depend on elements and attributes that reading is not about, on the order of attributes, on what stands between cells, or on the namespace prefixes the writer has chosen.", "quantifier": "for all XLSX packages and all arguments of `read`", "why_tests_cant": "Unboundedly many equivalent documents for each table.", "anchors": ["rxls/reader/xlsx.py:128-253", "rxls/reader/xlsx.py:289-437"]}
{"id": "C78", "title": "Dates follow the date system of the workbook", "statement": "A date is read as the date the spreadsheet program shows, also when the workbook says that its serials count from 1904.", "quantifier": "for all workbooks of both formats and all whole serials", "why_tests_cant": "Over all workbooks; a wrong date system gives plausible dates.", "anchors": ["rxls/chunk/casts.py::f8_to_ms_win", "rxls/reader/xlsx.py:128-152", "rxls/reader/xlsb.py:101-121"]}
{"id": "C79", "title": "The names the readers look for are those of the file formats", "statement": "The readers look for the elements, attributes, parts and record numbers that the file formats (ECMA-376, MS-XLSB) give to sheets, shared strings, formats and cells, `read` understands the documented words of `conflict_resolve`, and columns without a name get the documented one.", "quantifier": "for all contents of the elements named, all part lists, all words", "why_tests_cant": "A test written with the same constant as the code agrees with any spelling; the theorem has the names spelled out and holds for every content.", "anchors": ["rxls/reader/xlsx.py:128-253", "rxls/reader/xlsx.py:289-437", "rxls/reader/xlsb.py:101-178", "rxls/reader/xlsb.py:228", "rxls/reader/common.py:20-55", "rxls/reader/common.py:139-175"]}
{"id": "C80", "title": "Texts in the default date formats are read as the moments they write", "statement": "A column of texts that write dates (year-month-day, or day, month and year with `/`, `.` or `-`, the year with four or two digits), with or without a time after a space or `T`, or times alone, is converted to the moments these texts write.", "quantifier": "for all calendar dates up to 9999, all times of day, all styles, all columns mixing them", "why_tests_cant": "44 formats are tried one after the other on every text; an earlier format can accept part of the texts meant for a later one for some values only.", "anchors": ["rxls/chunk/casts.py:638-687", "rxls/chunk/casts.py:690-742"]}
{"id": "C81", "title": "The examples of the README do what their comments say", "statement": "`header=0` names the columns `Unnamed: 0`, `Unnamed: 1` and so on; `header=['a', 'b', 'c']` gives these names or raises when there are not three columns; `row_filters` with one pattern keeps the rows with a value in that column; a list of two patterns without a strategy keeps the rows with a value in both columns.", "quantifier": "for all column sets and all filter columns", "why_tests_cant": "The defaults of the signature and the wording of the documentation are in different files; a test written from the code repeats the code's default.", "anchors": ["README.md:24-64", "rxls/reader/common.py:106-129", "rxls/reader/common.py:193-209", "rxls/reader/common.py:249-261"]}
{"id": "C82", "title": "A workbook object serves the open file, whatever its history", "statement": "Before it is opened a workbook object refuses every use; while a file is open its sheets, shared strings, styles and cells are those of that file whatever was done before; after closing no cells come out; a value once served stays the same; opening a file that is no workbook leaves the object closed.", "quantifier": "all histories of open, close, property reads and iterations, both formats, all files", "why_tests_cant": "histories are unbounded sequences of operations", "anchors": ["rxls/reader/xlsx.py::XlsxWorkbook", "rxls/reader/xlsb.py::XlsbWorkbook"]}
{"id": "C83", "title": "Wrapped compute functions get the arguments they are called with", "statement": "A call of a function wrapped by arrow_fn passes the leading arguments to Arrow, as many as the function takes, and turns all other arguments, by position or by name, into its options; every call in rxls reaches Arrow with the arrays and options written there.", "quantifier": "all functions, options, arguments", "why_tests_cant": "all argument lists and signatures", "anchors": ["rxls/chunk/arrow.py::arrow_fn"]}
{"id": "C84", "title": "XML parts are read as XML says", "statement": "A part is accepted exactly when it is a well-formed XML document in UTF-8, written in any of the ways XML allows (declaration, comments, processing instructions, CDATA, references, either quote, self-closing tags, either line ending, byte-order mark), and gives the parser events its meaning demands; a part cut inside its root element gives a prefix of these events and then an error; a tree written out is read back.", "quantifier": "all sequences of bytes; all documents without DOCTYPE, all ways of writing each of them, all cuts, all splittings of text by the parser", "why_tests_cant": "the ways to write one document are unbounded and a library writes it in one way only; so are the texts that are not documents", "anchors": ["rxls/rels.py::Relationship.scan_xml", "rxls/reader/xlsx.py::XlsxWorkbook"]}
{"id": "C85", "title": "From the entries of the archive to the table", "statement": "An archive whose relationship part, workbook part, sheet parts, shared strings and styles are the XML or binary records of a workbook, in any order among other entries, is read as the table of the values of that workbook; a workbook written by a reference writer is read back.", "quantifier": "all archives, all workbooks, all ways of writing the XML, all `read` arguments of the composed theorems", "why_tests_cant": "all archives and all workbooks; the composition crosses every layer of the reader", "anchors": ["rxls/reader/common.py::read", "rxls/reader/xlsx.py::XlsxWorkbook.open", "rxls/reader/xlsb.py::XlsbWorkbook.open", "rxls/rels.py::Relationship.scan_xml"]}
{"id": "C86", "title": "Raw views of Arrow buffers", "statement": "The numpy view of an Arrow array without nulls that is not a slice holds its elements, and an Arrow array made over the memory of a numpy array holds the elements of that array; so the two conversions invert each other.", "quantifier": "all element sizes and all arrays", "why_tests_cant": "depends on offset, length and bitmap of the array, none of which the code looks at", "anchors": ["rxls/chunk/casts.py::_unsafe_array", "rxls/chunk/casts.py::_unsafe_arrow"]}
{"id": "C87", "title": "Numbers of XLSX cells", "statement": "The decimal number stored in a cell with a number or date format is read as the binary64 number nearest to it; a binary64 number written with 17 significant digits is read back exactly, hence as the same value as from XLSB.", "quantifier": "all decimal numbers (sign, point, exponent), all binary64 numbers", "why_tests_cant": "infinitely many texts", "anchors": ["rxls/chunk/chunk.py::chunk.xlsx_numeric", "rxls/chunk/casts.py::_unsafe_strings_to_array"]}
{"id": "C88", "title": "Saving a workbook as XLSX or as XLSB makes no difference", "statement": "One workbook of numbers, dates and shared strings, written as an XLSX archive and as an XLSB archive, is read as the same table, that of its values.", "quantifier": "all workbooks, all binary64 numbers, all number formats, all arguments", "why_tests_cant": "infinitely many workbooks and arguments; tests compare a few files", "anchors": ["rxls/reader/xlsx.py::XlsxWorkbook.iter_worksheet", "rxls/reader/xlsb.py::XlsbWorkbook.iter_worksheet", "rxls/reader/common.py::read"]}
{"id": "C89", "title": "With conflict_resolve=\"all\" a mixed column becomes what its cells mean", "statement": "In a workbook read with conflict_resolve=\"all\", a column with numbers whose texts write numbers becomes a column of numbers with the values written; a column with moments whose numbers are serial dates and whose texts write dates or times becomes a column of moments; a column of texts stays as it is.", "quantifier": "all workbooks of either format, all columns, all texts", "why_tests_cant": "infinitely many ways to write numbers and dates and to mix them in a column", "anchors": ["rxls/chunk/chunk.py::chunk.concatenate", "rxls/chunk/chunk.py::chunk.as_numeric", "rxls/chunk/chunk.py::chunk.as_temporal", "rxls/reader/common.py::read"]}
{"id": "C90", "title": "The rows of the table are rows of the sheet", "statement": "Without filters, every row of the table returned by read is a row of the sheet: the first data row plus the number of rows returned is at most the number of rows of the sheet. It fails for negative row counts: read puts header_height + first_row + skip_rows_after_header into both the offset and the length, but take_over ignores an offset below zero, so that as many rows are appended as the offset is below zero. Exactly: it holds iff the greatest span of a column plus that number is at most the number of rows of the sheet; rows not in the sheet are null in every column.", "quantifier": "all sheets of valid cells with arguments of any sign for skip_rows_after_header, any lookup, any conflict resolution", "why_tests_cant": "The relation between offset, length, spans and the returned rows holds for infinitely many sheets and arguments; negative arguments are accepted silently.", "anchors": ["rxls/reader/common.py:240-241", "rxls/reader/common.py:297", "rxls/chunk/chunk.py::chunk.take_over"]}
{"id": "C91", "title": "The recorded size of a chunk is the number of its cells", "statement": "The field size of a chunk, by which take_over counts rows, equals the number of cells in its data: for the chunks made from a run of cells (for XLSB numbers: exactly if their bytes add up), for null chunks and for whatever take returns; prepare keeps both. It fails for the chunks that as_numeric and as_temporal make: their size is 0. The predicates is_empty, is_null, is_numeric, is_temporal say what the cells of a chunk are.", "quantifier": "all runs of cells, all chunks, all selections", "why_tests_cant": "infinitely many chunks; a wrong size is visible only in a later window over the same column", "anchors": ["rxls/chunk/chunk.py:98-214", "rxls/chunk/chunk.py::chunk.take", "rxls/chunk/chunk.py::chunk.prepare", "rxls/chunk/chunk.py::chunk.as_numeric", "rxls/chunk/chunk.py::chunk.as_temporal"]}
{"id": "C92", "title": "A column without cells", "statement": "A column to which no cell was added yields, as array and as texts, exactly as many nulls as rows are asked for (or as the mask keeps), reading it changes nothing, and its length is 0.", "quantifier": "all offsets, lengths and masks, all settings", "why_tests_cant": "read() never makes such a column, so only direct use of xl_series reaches the branch", "anchors": ["rxls/series.py::xl_series.to_arrow", "rxls/series.py::xl_series.to_utf8", "rxls/series.py::xl_series.__len__"]}
{"id": "C93", "title": "Padding in a number format is no date field", "statement": "A custom number format in which d, m, h, y, s occur only as the width of padding (`_x`, `*x`) is not taken for a date; a format with a date or time field is.", "quantifier": "all format codes", "why_tests_cant": "format codes are unbounded texts; the padding letters depend on the currency symbol of a locale", "anchors": ["rxls/reader/xlsx.py::XlsxWorkbook.styles", "rxls/reader/xlsb.py::XlsbWorkbook.styles"]}
{"id": "C94", "title": "Escaped characters of XLSX texts are read as the characters", "statement": "A text that was saved in an XLSX file with `_xHHHH_` sequences for the characters XML cannot hold (ECMA-376 ST_Xstring) is read as the text that was saved.", "quantifier": "all texts", "why_tests_cant": "the texts are unbounded, and the sequences are only visible when a cell has a carriage return or control character", "anchors": ["rxls/reader/xlsx.py::XlsxWorkbook.shared"]}
{"id": "C95", "title": "Only the parts of the workbook count, wherever they are stored", "statement": "For every archive and all arguments, read depends on at most one sheet entry and the workbook, relationship, shared strings and styles entries. The order of entries and every other entry have no influence. Parts are found as the package standard says: by relationship, ignoring the case of letters.", "quantifier": "all archives, all arguments of read", "why_tests_cant": "Two archives are compared over everything else they may contain, for all orders of the entries.", "anchors": ["rxls/reader/xlsx.py:118-122", "rxls/reader/xlsx.py:129-162", "rxls/reader/xlsb.py:101-147", "rxls/reader/common.py:139-151"]}
{"id": "C96", "title": "Elapsed time formats are times", "statement": "A number format code is taken for a date or time exactly when, outside literals and escapes, it has a date or time field or a bracketed section of hours, minutes or seconds, in upper or lower case and with any number of letters.", "quantifier": "all format codes with plain escapes and without line feeds", "why_tests_cant": "Format codes are unbounded texts with nested syntax.", "anchors": ["rxls/reader/xlsx.py:37-38", "rxls/reader/xlsx.py:232", "rxls/reader/xlsb.py:34-35", "rxls/reader/xlsb.py:172"]}
{"id": "C97", "title": "The order of cells of different columns does not matter", "statement": "If two deliveries contain the same cells in every column, in the same order within each column, read gives the same table from both or fails for both, for all arguments.", "quantifier": "all lists of cells, all arguments of read", "why_tests_cant": "The number of interleavings of cells grows exponentially; the statement covers all of them and all cells.", "anchors": ["rxls/reader/common.py:156-176", "rxls/reader/common.py:71-93", "rxls/reader/common.py::read"]}
{"id": "C98", "title": "The text of a moment", "statement": "Where dates end up in a column of text, each moment is written as its date and its time to the millisecond (YYYY-MM-DD HH:MM:SS.mmm), two moments never share a text, and the package's own date parser reads the text as the same moment.", "quantifier": "all moments of the years 1900 to 9999; all columns of dates beside texts or numbers", "why_tests_cant": "There are 2.5e14 moments; the calendar has a period of 400 years, with exceptions every 4 and 100 years.", "anchors": ["rxls/chunk/arrow.py:75-77", "rxls/chunk/casts.py:638-687", "rxls/chunk/casts.py::mf_strptime"]}
{"id": "C99", "title": "Columns do not influence one another", "statement": "Without search of a header, filters and required types, the array of a column depends only on its own cells and on the number of rows; leaving out some columns with the number of rows unchanged leaves the arrays of the others as they were, and with a header of one row also their names.", "quantifier": "all lists of cells, all sets of columns left out, all header heights and skipped rows", "why_tests_cant": "The statement compares two reads for every set of columns and every content of the columns left out.", "anchors": ["rxls/reader/common.py::read", "rxls/reader/common.py:71-93", "rxls/reader/common.py:156-176"]}
{"id": "C100", "title": "A readable workbook is read, or refused with ValueError", "statement": "For a workbook that stores a sheet, read with the default arguments gives a table exactly if some cell holds something in a column not left out, and ValueError otherwise. With other arguments the exception is ValueError.", "quantifier": "all workbooks of both formats, all arguments of read", "why_tests_cant": "The statement is about every exception of every workbook and argument; a test shows one.", "anchors": ["rxls/reader/common.py::read", "rxls/reader/common.py:71-93", "rxls/chunk/chunk.py::chunk.concatenate"]}
{"id": "C101", "title": "With polars, texts with thousandths of a second or AM/PM are read as the moments they write", "statement": "When polars is installed, a column of texts that write moments with a four-digit year (in the ISO style or day first with /, . or -, alone or followed by a space or T and a time as HH:MM, HH:MM:SS, HH:MM:SS.fff, hh:mm AM/PM or hh:mm:ss AM/PM), in any mixture, is read by mf_strptime as exactly these moments, although several of the 89 formats may accept a text; in particular the texts the package itself writes for moments in a text column are read back as these moments; times of day alone in the same styles, and texts with a time zone, are read as well.", "quantifier": "for all lists of texts in these styles, all real dates of years up to 9999, all times of day to the millisecond", "why_tests_cant": "Eighty-nine formats are tried in order on every text and the first non-zero answer wins; that no earlier format reads one of the infinitely many texts as something else cannot be sampled.", "anchors": ["rxls/chunk/casts.py::_strptime", "rxls/chunk/casts.py:606-635", "rxls/chunk/casts.py:663-687", "rxls/chunk/casts.py::mf_strptime"]}
{"id": "C102", "title": "A column number names the same column in every argument", "statement": "The number i names the column i of the sheet (A is 0) in skip_cols, in lookup_head and in row_filters alike; in particular read(..., lookup_head=i, row_filters=[i]) looks for the header in the column by which it then filters the rows.", "quantifier": "for all sheets, whichever columns have cells, all column numbers, all row_filters_strategy values", "why_tests_cant": "The numbers are resolved in three places against two different lists of columns that agree on every sheet without empty columns, which is what test files look like.", "anchors": ["rxls/reader/common.py:218-224", "rxls/reader/common.py::__find_header", "rxls/reader/xlsb.py:254", "rxls/reader/xlsx.py:376"]}
{"id": "C103", "title": "Formats of conditional formatting and tables are not formats of cells", "statement": "The class of a cell (date, number, other) depends on its cell format and on the custom number formats of the workbook only; number formats inside of differential formats (dxfs), which are numbered on their own, do not change it.", "quantifier": "for all style sheets with all attributes, all differential formats, all cell formats; XLSX and XLSB", "why_tests_cant": "The element has the same name in both places, and files only go wrong when a table or a conditional format uses a number format and its number happens to be that of a cell format with another meaning.", "anchors": ["rxls/reader/xlsx.py:205-219", "rxls/reader/xlsx.py::XlsxWorkbook", "rxls/reader/xlsb.py::XlsbWorkbook"]}
{"id": "C104", "title": "What row_callback and null_values raise reaches the caller", "statement": "If a call of row_callback (or of a null_values function) raises, read raises that exception and returns no table; if no call raises, the callback makes no difference to the result.", "quantifier": "for all files of either format, all arguments, all callbacks: the first call that raises may be any of those that are made, with any exception", "why_tests_cant": "In the XLSX reader the callback runs in another thread; whether an exception is lost, cuts the table short or blocks the caller for ever depends on which call raises, and a blocked call makes no failing assertion.", "anchors": ["rxls/reader/xlsx.py:317-322", "rxls/reader/xlsx.py:397-437", "rxls/reader/xlsx.py:438-460", "rxls/reader/xlsb.py:228-303"]}
{"id": "C105", "title": "The style number of a cell is a position in cellXfs", "statement": "A cell with style number i has the class (date, number, other) of the i-th xf element inside of cellXfs, whichever optional attributes the xf elements have; formats of cell styles (cellStyleXfs) do not count.", "quantifier": "for all style sheets, all positions, all combinations of the optional attributes", "why_tests_cant": "The reader tells cell formats from style formats by an attribute that the standard leaves optional; common writers always put it, and then every test agrees.", "anchors": ["rxls/reader/xlsx.py:205-225", "rxls/reader/xlsx.py:333-339"]}
{"id": "C106", "title": "The declared type of an XLSX cell", "statement": "A cell is read as its attribute t says: shared string (s), text (str, inlineStr, e), truth value (b), date (d), and number or date by the number format (n or absent), whatever the number format of the cell.", "quantifier": "for all cells, all style sheets, all values of t", "why_tests_cant": "All pairs of declared type and number format; files of common writers rarely have a text or a truth value in a cell formatted as a date, except for formulas.", "anchors": ["rxls/reader/xlsx.py:333-339", "rxls/reader/xlsb.py::XlsbWorkbook.iter_worksheet"]}
{"id": "C107", "title": "Error values are empty cells", "statement": "A cell with an error value (#N/A, #DIV/0!, ...) is read as if it were not in the file, in XLSX and in XLSB, wherever it stands and whatever the arguments of read: row counting, headers, column types and the set of columns are the same.", "quantifier": "for all sheets, all error values, all places, all arguments of read", "why_tests_cant": "All positions of error cells relative to row limits, headers and runs of numbers or dates, in two formats with different mechanisms (a set of texts, and records that are not scanned).", "anchors": ["rxls/reader/xlsx.py:46-63", "rxls/reader/xlsx.py:349-385", "rxls/reader/xlsb.py:228"]}
{"id": "C108", "title": "Phonetic guides are not part of a text", "statement": "The readings (rPh elements) that a shared string of an XLSX file gives for its characters have no influence on the table.", "quantifier": "for all shared string tables, all guides, all null_values, all arguments of read", "why_tests_cant": "The guide only matters where the text itself is blank or null, which depends on null_values and on the file together.", "anchors": ["rxls/reader/xlsx.py:154-193"]}
{"id": "C109", "title": "Rows that the file leaves out", "statement": "An empty row makes no difference to the table whether the file has an element (XLSX) or a record (XLSB) for it or leaves it out, as writers may.", "quantifier": "for all sheets, all sets of rows left out, all arguments of read", "why_tests_cant": "All places of gaps in sheets of any length; writers differ in which rows they leave out.", "anchors": ["rxls/reader/xlsx.py:387-418", "rxls/reader/xlsb.py:228-248"]}
{"id": "C110", "title": "Leaving an XLSX sheet before its end", "statement": "A consumer that stops iterating an XLSX sheet after any number of cells has received exactly the first cells of the sheet; the parser thread then ends after a bounded number of its turns, reads no further block once the file is closed, and ends without a traceback.", "quantifier": "all schedules of the two threads, all sheets and block divisions, all stopping points", "why_tests_cant": "races between closing the file and the accesses of the parser thread", "anchors": ["rxls/reader/xlsx.py::XlsxWorkbook.iter_worksheet"]}
{"id": "C111", "title": "Long texts are read whole", "statement": "The text of an XLSX cell or shared string is read whole, however long it is (a cell holds up to 32767 characters).", "quantifier": "all texts, all files, all arguments of read, every way the XML parser divides a text that does not fit in its buffer", "why_tests_cant": "test files have short texts; the boundary is the 8192 bytes of pyexpat's buffer", "anchors": ["rxls/reader/xlsx.py::XlsxWorkbook.iter_worksheet", "rxls/reader/xlsx.py::XlsxWorkbook.shared", "rxls/series.py::xl_series.add"]}
{"id": "C112", "title": "Conversion options change nothing where there is nothing to convert", "statement": "datetime_formats has no effect unless conflict_resolve is \"temporal\" or \"all\". If every column has cells of one sort (text, moment or number), conflict_resolve and datetime_formats have no effect; if there are no numbers, float_precision has none. No effect means: the same names, types, rows, values, or the same exception.", "quantifier": "all files of both formats, all other arguments of read (headers, lookups, row filters, dtypes, sheets, windows)", "why_tests_cant": "tests compare a few option values on a few files; the options are read deep in the concatenation of chunks, once for each header, filter and column", "anchors": ["rxls/reader/common.py::read", "rxls/chunk/chunk.py::chunk.concatenate", "rxls/series.py::xl_series.to_arrow"]}
{"id": "C113", "title": "The blanks around a text are part of it", "statement": "A text cell is delivered with the blanks it begins and ends with; a text of blanks only is a text. Violated in XLSX: text is stripped (of every Unicode white space, the no-break space among them), and a cell of blanks is missing; two files that differ in such blanks only are read alike under all arguments. XLSB delivers texts as stored.", "quantifier": "all texts, in cells and shared strings, all packages and arguments of read", "why_tests_cant": "test files seldom have cells that begin or end with blanks, and never compare the two formats on them; that no argument changes it is a statement about all reads", "anchors": ["rxls/reader/xlsx.py::XlsxWorkbook.shared", "rxls/reader/xlsx.py::XlsxWorkbook.iter_worksheet", "rxls/reader/xlsb.py::XlsbWorkbook.shared"]}
{"id": "C114", "title": "A cell format without a number format is General", "statement": "The attribute numFmtId of an xf element is optional; a styles part that leaves it out is read as if it were 0 (General). Violated: the file is refused with KeyError, whichever sheet and arguments, even if no cell has the format.", "quantifier": "all styles parts, all XLSX packages and arguments of read", "why_tests_cant": "the files of common writers always carry the attribute; which styles parts are refused, and with which exception, is a statement about all of them", "anchors": ["rxls/reader/xlsx.py::XlsxWorkbook.styles", "rxls/reader/xlsx.py::XlsxWorkbook.iter_worksheet"]}
{"id": "C115", "title": "No memory outside the buffers is read", "statement": "Whatever the file, read returns a table or raises an exception; it does not look at memory outside its buffers. Holds whenever the references to shared strings are numbers of strings in the table (and, in XLSB, are complete); violated otherwise: the index is not checked.", "quantifier": "all packages of both formats, all arguments of read", "why_tests_cant": "it is a statement about every file, well-formed or not; a test that reads foreign memory usually passes", "anchors": ["rxls/chunk/arrow.py::take", "rxls/chunk/casts.py::_unsafe_data_to_arrow", "rxls/chunk/chunk.py::chunk.prepare", "rxls/series.py::xl_series.add", "rxls/reader/common.py::read"]}
{"id": "C116", "title": "Only the values of a worksheet count", "statement": "Two workbooks whose sheets have the same cells with the same values are read as the same table for every choice of arguments: formulas, properties of rows and columns (hidden, height, width), merged ranges, links, comments, validations and bytes behind the value of an XLSB cell have no influence.", "quantifier": "all worksheet parts (any event sequence, well-formed or not; any record stream), all readFile arguments", "why_tests_cant": "A test has one file with one formula; that no element between or inside the cells can change what is delivered is a statement about every event sequence and state of the handlers.", "anchors": ["rxls/reader/xlsx.py::XlsxWorkbook.iter_worksheet", "rxls/reader/xlsb.py::XlsbWorkbook.iter_worksheet", "rxls/reader/common.py::read"]}
{"id": "C117", "title": "Texts stored in their cells are read", "statement": "A cell that holds its text itself instead of a number of the shared string table (XLSX t=\"inlineStr\" with an is element, XLSB records BrtCellSt and BrtCellRString) is delivered with that text.", "quantifier": "all sheets, all readFile arguments", "why_tests_cant": "Tests are made from files saved by one program that uses the shared table; that such cells never arrive, under any arguments, needs a proof about all sheets.", "anchors": ["rxls/reader/xlsx.py::XlsxWorkbook.iter_worksheet", "rxls/reader/xlsb.py::XlsbWorkbook.iter_worksheet"]}
{"id": "C118", "title": "skip_cols takes columns out of the table and changes nothing else", "statement": "If a file is read without skip_cols, then with skip_cols it is read too, and gives the columns that are not skipped, with the same rows and (for one header row) the same names.", "quantifier": "all files of either format, all skip_rows, take_rows, take_rows_non_empty, header heights, null values and sets of columns", "why_tests_cant": "Tests skip a column of one full table; what breaks is the interplay of skipped values with empty rows, row limits and the height of the table.", "anchors": ["rxls/reader/xlsx.py::XlsxWorkbook.iter_worksheet", "rxls/reader/xlsb.py::XlsbWorkbook.iter_worksheet", "rxls/reader/common.py::read"]}
{"id": "C119", "title": "The comments of the row parameters hold", "statement": "take_rows takes that many of the rows after the header and the rows skipped after it, rows are skipped after a header only, and a column of texts that are all numbers is detected as numbers. In fact take_rows counts rows of the sheet, one more than asked for and the header included; rows are skipped whatever the header is; and texts stay texts.", "quantifier": "all files of either format whose sheet has a column with a value in every row, all take_rows, header, skip_rows_after_header, skip_cols, conflict and type arguments", "why_tests_cant": "Tests use one header row without skipped rows, the single combination where the extra row and the header cancel out.", "anchors": ["rxls/reader/common.py::read", "rxls/reader/xlsx.py::XlsxWorkbook.iter_worksheet", "rxls/reader/xlsb.py::XlsbWorkbook.iter_worksheet"]}
{"id": "C120", "title": "Sorting the rows of a sheet sorts the rows of the table", "statement": "If two files hold the same rows, but those below the header in another order, then reading them with the same arguments gives tables with the same names and types whose rows are in that order.", "quantifier": "all pairs of files of one format with a column that has a value in every row, all orders of the rows, all headers, rows skipped after them, skip_cols and conversion options", "why_tests_cant": "All permutations of unbounded sheets, relating two runs of the whole reader; columns are built from runs of cells of one kind, which every reordering cuts differently.", "anchors": ["rxls/reader/common.py::read", "rxls/series.py::xl_series.add", "rxls/series.py::xl_series.to_arrow"]}
{"id": "C121", "title": "Where the table stands on the sheet does not matter", "statement": "If two workbooks differ only in the columns their cells stand in \u2013 column k of one is column f(k) of the other, f strictly increasing, so that empty columns are inserted or removed anywhere \u2013 then read gives the same table or the same exception for both, with skip_cols and an integer lookup_head translated by f. No other argument is translated; in particular integers in row_filters are positions in the table.", "quantifier": "all strictly increasing f on the integers; all XLSX worksheet event streams and all XLSB record streams (well-formed or not) related cell by cell; all arguments, null predicates, Arrow functions", "why_tests_cant": "Tests place tables at a few positions; the claim is over all placements, all contents and all arguments at once, and depends on the dictionary of columns being used only through the order of its keys.", "anchors": ["rxls/reader/common.py::read", "rxls/reader/common.py::__find_header", "rxls/reader/common.py::__make_header", "rxls/reader/xlsx.py::XlsxWorkbook.iter_worksheet", "rxls/reader/xlsb.py::XlsbWorkbook.iter_worksheet", "rxls/reader/xlsx.py::col_idx"]}
{"id": "C122", "title": "A table stored in a workbook is read back", "statement": "Store a table in a sheet: the names of the columns in the first row, the values below, texts as shared strings, numbers in number formats, moments in date formats, missing values as missing cells. Reading the file with header=1 gives the same names, the same values and the same Arrow types (string, int64, double, timestamp), in the same order, whether the workbook is saved as XLSX or as XLSB. Needed: every row and every column that is not of texts has a value; whole numbers times 5^float_precision stay within 2^53 (C123); a column of other numbers has one that is clearly not whole.", "quantifier": "all tables (any number of rows and columns, any values) with clear types, all workbooks holding them on any sheet, all archives with their parts, both formats, all float_precision up to 15, all conflict resolutions (by dates only without moments)", "why_tests_cant": "A test stores a few tables; the claim is about all tables, through zip parts, XML or binary records, chunks of each kind, type detection and header handling, for both formats at once.", "anchors": ["rxls/reader/common.py::read", "rxls/reader/xlsx.py::XlsxWorkbook.iter_worksheet", "rxls/reader/xlsb.py::XlsbWorkbook.iter_worksheet", "rxls/chunk/chunk.py::chunk.concatenate"]}
{"id": "C123", "title": "A column of whole numbers is delivered as int64", "statement": "If all numbers of a numeric column are whole and at most 2^53 in magnitude (so that the workbook holds them exactly), the column is delivered as int64.", "quantifier": "all columns of whole numbers, all float_precision", "why_tests_cant": "Whether a number counts depends on two roundings of a product and a quotient; small numbers, even large numbers and most samples pass, and the failing numbers form intervals that depend on the precision.", "anchors": ["rxls/chunk/casts.py::f8_is_i8", "rxls/chunk/chunk.py::chunk.concatenate", "rxls/reader/common.py::read"]}
{"id": "C124", "title": "What was read, stored and read again, is the same", "statement": "Read a table from a sheet with any arguments except dtypes. Store the result in a workbook: names in the first row, values below, missing values as missing cells. Reading that workbook with header=1 and the same float_precision (at most 22) gives the same names, the same values and the same Arrow types, as XLSX and as XLSB. Nothing is asked of the values. Needed: the table has a row; no row consists of nulls only; no column name is empty; the second read of a file resolves no conflicts by dates.", "quantifier": "all sheets, all read arguments except dtypes, all tables that result, all workbooks that store them, both formats, all float_precision up to 22", "why_tests_cant": "Idempotence could break at one double whose rounding to float_precision digits differs before and after truncation; no sample of tables excludes it, a proof over all doubles does.", "anchors": ["rxls/reader/common.py::read", "rxls/chunk/casts.py::f8_is_i8", "rxls/chunk/chunk.py::chunk.concatenate"]}
{"id": "C125", "title": "A sheet read in two parts", "statement": "A sheet has a column with a value in every row, and all columns have a value in the first t+1 rows. Read it whole, read it with take_rows=t, and read it with skip_rows_after_header = t+1 minus the number of header rows. The names are the same in all three tables. A column of the whole is the concatenation of the columns of the parts if these have the same type, or if a part has no values (then it has the type of the other part); otherwise its type is the join: double for int64 and double, else string. This holds without lookup, filters, dtypes and conflict resolution, in both formats.", "quantifier": "all sheets with the two conditions, all t, any header, skipped columns, null values and float_precision, both formats", "why_tests_cant": "Types are decided per read from all values of the window; that two windows always compose needs every mixture of types and nulls at every cut, and the offsets of both code paths.", "anchors": ["rxls/reader/common.py::read", "rxls/chunk/chunk.py::chunk.concatenate", "rxls/reader/xlsx.py::XlsxWorkbook.iter_worksheet", "rxls/reader/xlsb.py::XlsbWorkbook.iter_worksheet"]}
{"id": "C126", "title": "The values of a table are those of the sheet", "statement": "Whatever read returns without dtypes and conflict resolution: its columns are those of the sheet, its rows are rows of the sheet in their order, and each value is the one of its cell. Texts and moments are the same; a number is the same double, or an integer that differs by at most half a unit of the last of float_precision digits and relative 2^-50, or its text in a column of mixed kinds; an empty cell is null, and no other cell is.", "quantifier": "all sheets, all header, lookup, filter, strategy, row and column arguments, float_precision up to 15, both formats", "why_tests_cant": "It is about every number at every position after every selection of rows; the failing numbers (2^63 and more) are rare in samples.", "anchors": ["rxls/reader/common.py::read", "rxls/chunk/chunk.py::chunk.concatenate", "rxls/chunk/casts.py::f8_is_i8"]}
{"id": "C127", "title": "Only names, links, formats, texts and values of a workbook count", "statement": "Two workbooks that agree on the names and links of their sheets, the number formats and format ids of cell formats, the texts of the shared strings and the values of the sheets are read alike for every choice of arguments. The state and number of a sheet, the date system, views, defined names, fonts, fills, borders, properties of runs and all other elements and records have no influence.", "quantifier": "all XLSX event sequences and all XLSB record streams of the workbook, relationship, styles, shared strings and sheet parts; all readFile arguments", "why_tests_cant": "That nothing else in any of the parts can change the result is a statement about every pair of files, not about one file with one hidden sheet.", "anchors": ["rxls/reader/xlsx.py:128-253", "rxls/reader/xlsb.py:101-178"]}
{"id": "C128", "title": "Row filters take rows out and change nothing else", "statement": "With row_filters and the strategy 'and', 'or' or a list of operators, a sheet is read as the sheet without the rows below header and skipped rows that are empty in all (for 'and': in any) of the columns the filters select would be read without filters; a list of operators combines the columns from left to right: same names, same values, same types. If no row is left the read is a ValueError.", "quantifier": "all sheets with a column with a value in every row, all filters that select a column without NaN, any header, skip_rows_after_header, dtypes, conflict resolution, skipped columns and null values, no lookup, both formats", "why_tests_cant": "The filter is a mask over columns fetched on their own and applied to every other column; that this equals reading a smaller file needs all mixtures of types and empty cells, since types are decided after filtering.", "anchors": ["rxls/reader/common.py::read", "rxls/chunk/chunk.py::chunk.concatenate"]}
{"id": "C129", "title": "null_values empties cells", "statement": "Reading a file with null_values gives the table that the file without the cells holding these texts gives when read without null_values: same names, types and values, for all other arguments.", "quantifier": "all files and null_values (list or function), all other arguments, both formats; proved for texts stored in their cells, refuted for shared strings", "why_tests_cant": "Nulls are recognised in three places (shared strings, cells, first cell) and the type of a column is decided later from what is left; agreement with the smaller file is a statement about all arguments and all mixtures of cells.", "anchors": ["rxls/reader/xlsx.py::XlsxWorkbook.iter_worksheet", "rxls/reader/xlsb.py::XlsbWorkbook.iter_worksheet", "rxls/reader/common.py::read", "rxls/chunk/chunk.py::chunk.concatenate"]}
{"id": "C130", "title": "Rearranging the columns of a sheet rearranges the columns of the table", "statement": "Two sheets have the same columns in different order. Read with a header of one row and arguments that go by names (filters by pattern combined with 'and' or 'or', one type or types by name), they give tables with the same columns, each with its name, type and values, in possibly different order; or both reads raise an exception. skip_cols names the same columns in both reads.", "quantifier": "all sheets with a column with a value in every row, all permutations of column numbers, all take_rows, skip_rows_after_header, null values, conflict resolution and precision, both formats", "why_tests_cant": "It is a statement about all permutations of all sheets; columns are collected in reading order, sorted, named, filtered and cast in separate loops that must agree on which column is meant.", "anchors": ["rxls/reader/common.py::read", "rxls/reader/common.py::__make_header", "rxls/chunk/chunk.py::chunk.concatenate"]}
{"id": "C131", "title": "The other sheets of a workbook do not matter", "statement": "Two workbooks with the same styles and shared strings have a sheet in common, possibly at different positions and under different names. Asked for by its position or by its name, the sheet is read alike from both, whatever other sheets there are.", "quantifier": "all pairs of workbooks of one format with a sheet in common, all positions and names, all other arguments", "why_tests_cant": "The other sheets are arbitrary in number, order, name and kind; the lists of names, ids and targets are joined from two parts.", "anchors": ["rxls/reader/xlsx.py::XlsxWorkbook.sheets", "rxls/reader/xlsb.py::XlsbWorkbook.sheets", "rxls/reader/xlsx.py::XlsxWorkbook.iter_worksheet", "rxls/reader/common.py::read"]}
{"id": "C132", "title": "How the values are stored does not matter", "statement": "Two files of one format with the same values in the same cells are read alike, with all arguments, whether a number is an RK number or a double, a constant or the result of a formula, a text is shared (under whatever number) or stored in its cell, and whichever cell formats of the same kind are used.", "quantifier": "all pairs of files of one format with the same values, all arguments", "why_tests_cant": "The pairs of storage forms multiply with types, positions and arguments; the code has a branch for each form and decides types from runs of cells of one form.", "anchors": ["rxls/reader/xlsx.py::XlsxWorkbook.iter_worksheet", "rxls/reader/xlsb.py::XlsbWorkbook.iter_worksheet", "rxls/chunk/chunk.py::chunk.concatenate", "rxls/reader/common.py::read"]}
{"id": "C133", "title": "A list of names names the columns and changes nothing else", "statement": "Reading any file with a list of names as header gives the same arrays as reading it with header=0, under these names. If the number of names is not that of the columns, the read is a ValueError; if the read with header=0 raises, so does the other one.", "quantifier": "all files of both formats, malformed ones included, all lists of names, all other arguments except filters by pattern and types by name", "why_tests_cant": "The claim compares two reads of every file, also of files that make either read fail at any stage.", "anchors": ["rxls/reader/common.py::read"]}
{"id": "C134", "title": "dtypes retypes the columns of the table and changes nothing else", "statement": "Reading any file with dtypes gives the table of the read without dtypes in which every column a type is asked for has been cast to it: same names, same number of columns, same rows. The read is a ValueError exactly if a list of types has another length than the table has columns or a column cannot be cast; if the read without dtypes raises, so does the other one.", "quantifier": "all files of both formats, malformed ones included, all forms of dtypes, all other arguments", "why_tests_cant": "The claim compares two reads of every file, also of files that make either read fail at any stage.", "anchors": ["rxls/reader/common.py::read"]}
{"id": "C135", "title": "The short and the long form of an argument mean the same", "statement": "A list of null values is read as the function that tests for membership; a single datetime format as a list of one; a single row filter pattern as a list of one; empty lists as no argument; a list that repeats one operator for the row filters, if accepted, as this operator; a single type as the list that repeats it for every column and as the mapping from every column name to it.", "quantifier": "all files of both formats, malformed ones included, all values, all other arguments", "why_tests_cant": "The claim compares two reads of every file for every combination of the other arguments.", "anchors": ["rxls/reader/common.py::read", "rxls/reader/xlsx.py::XlsxWorkbook.__init__", "rxls/reader/xlsb.py::XlsbWorkbook.__init__"]}
{"id": "C136", "title": "Header and lookup_head decide about the names and the first row, nothing else", "statement": "If the header is n rows high and lookup_head finds it in row r, reading the sheet gives the same arrays as reading it with header=0, without lookup_head and with skip_rows_after_header increased by r + n, or raises the same exception. In particular the values of the header do not influence the types of the columns.", "quantifier": "all workbooks of the file models of both formats with a data row, all header heights, all ways to look for the header, all other arguments with filters and types by position", "why_tests_cant": "Two different argument lists have to agree on every sheet; the texts of the header are made by methods that leave state behind in the columns.", "anchors": ["rxls/reader/common.py::read", "rxls/reader/common.py::__find_header", "rxls/reader/common.py::__make_header"]}
{"id": "C137", "title": "Filters by name and by position are the same filters", "statement": "If a read with row_filters by pattern gives a table, then the read with the list of the positions at which the column names of this table match a pattern gives the same table. Of a list of positions only the set of those that have a column counts; order and repetitions do not.", "quantifier": "all files of both formats, all patterns, all lists of positions, all other arguments", "why_tests_cant": "Two argument lists have to agree on every file, whatever names its columns have and whatever the regular expressions match.", "anchors": ["rxls/reader/common.py::read"]}
{"id": "C138", "title": "Limits that limit nothing", "statement": "skip_cols is a set of column numbers: order and repetitions do not count, and numbers that are no column of any cell (negative ones, for instance) have no effect. A take_rows of at least the number of rows of the sheet (skip_rows included) has no effect: all such numbers give the same table or the same exception, and so does reading without a limit if neither skip_rows nor take_rows_non_empty is given.", "quantifier": "for all archives (damaged ones included), arguments, lists of columns and row limits", "why_tests_cant": "both claims range over all sheets and all lists or numbers; a test compares a few", "anchors": ["rxls/reader/xlsx.py:282-460", "rxls/reader/xlsb.py:207-303", "rxls/reader/common.py:95-133"]}
{"id": "C139", "title": "Looking for the header in more rows", "statement": "If the header is found within lookup_size rows, a greater lookup_size gives the same table. True for a column number; for a pattern only if no cell in the additional rows matches: the columns are searched one after the other, so with more rows a data row in an earlier column can be taken for the header.", "quantifier": "for all workbooks that hold a grid, all arguments, all sizes", "why_tests_cant": "the two sizes have to straddle a match in an earlier column; a test uses the default size on a sheet with one match", "anchors": ["rxls/reader/common.py::__find_header", "rxls/reader/common.py:182-194"]}
{"id": "C140", "title": "A looser strategy keeps every row that a stricter one keeps", "statement": "If row_filters_strategy is changed by replacing 'and' with 'or' in some places (from 'and' to a list of operators, from one list to another, from a list to 'or'), every row that was kept is still kept: the mask of the stricter strategy is within that of the looser one, the names of the columns stay, and the table does not get shorter.", "quantifier": "for all columns in any state, all filters and all pairs of strategies of which one is looser; for tables: all valid cells and arguments with a data row for which both reads give a table", "why_tests_cant": "the pairs of strategies grow exponentially with the number of filter columns, and the claim is about every row of every sheet", "anchors": ["rxls/reader/common.py::read"]}
{"id": "C141", "title": "A list of datetime formats counts only through the moments it gives to texts", "statement": "Two lists of datetime_formats that give every text the same moment (that of the first format with a moment other than zero) read every file alike. So a format can be repeated, the default formats can be written out instead of giving none, neighbouring formats that fit no common text can be exchanged, and a format that fits no text can be left out if it is not the only one. Appending formats does not change the moments of texts that were all recognised without them.", "quantifier": "all files of both formats, malformed ones included, all lists of formats, all other arguments, all parsers of one format", "why_tests_cant": "the claim compares two reads of every file for every list of formats and every combination of the other arguments", "anchors": ["rxls/chunk/casts.py::mf_strptime", "rxls/chunk/chunk.py::chunk.as_temporal", "rxls/reader/common.py::read"]}
{"id": "C142", "title": "With fewer digits no integers are lost", "statement": "A column that read delivers as integers with some float_precision is delivered as the same integers with every smaller float_precision. Violated for large whole numbers, e.g. 2882303761519 with 6 and 5 digits.", "quantifier": "all columns of numbers, all pairs of float_precision, all settings of conflict_resolve", "why_tests_cant": "The claim compares two settings for every column of doubles; the violations are rounding effects at particular magnitudes.", "anchors": ["rxls/chunk/casts.py::f8_is_i8", "rxls/chunk/chunk.py::chunk.concatenate"]}
{"id": "C143", "title": "More row filters keep more rows with 'or' and fewer with 'and'", "statement": "If further filter columns are added to row_filters, then with the strategy 'or' every row that was kept is still kept, and with 'and' every row that is kept was kept before; the names of the columns stay, and the number of rows changes accordingly.", "quantifier": "for masks: columns with any contents, all pairs of non-empty filter lists of which one contains the other; for tables: all valid cells and arguments with a data row for which both reads give a table", "why_tests_cant": "the claim compares the reads with every pair of filter lists for every sheet", "anchors": ["rxls/reader/common.py::read"]}
{"id": "C144", "title": "The way the header is looked for counts only through the row found", "statement": "Two reads of a sheet that differ in lookup_head and lookup_size only and find the same header row give the same table. False for lookup_size=0: the search then works on the column in place, converted texts become chunks of size 0, and their values are lost.", "quantifier": "for cells: all valid cells, all settings of conflict resolution, all arguments with a positive lookup_size and a data row for which both reads give a table; for files: all XLSX and XLSB workbooks that hold a grid", "why_tests_cant": "the claim compares every pair of ways to look for the header on every sheet", "anchors": ["rxls/reader/common.py::read", "rxls/reader/common.py::__find_header", "rxls/chunk/chunk.py::chunk.concatenate"]}
