# Formal model of rxls in Lean 4

The Lean project in `lean/` is an executable model of the rxls source, function by function and branch by branch.
Python exceptions are values (`Py α = Except PyErr α`). Theorems about the model quantify over all inputs, call
histories or thread schedules. The code itself is never run: the tie between code and model is reading.

| directory | content |
|---|---|
| `lean/Verif/Model/` | the model; every definition cites the file and lines it models and names its simplifications |
| `lean/Verif/Spec/` | small specifications, independent of the model, that the theorems are stated against |
| `lean/Verif/Lemmas/` | helper lemmas |
| `lean/Verif/Props/` | the property theorems `Cnn_*` and the concrete `example`s beside them |

Naming: a theorem `Cnn_..._partial` proves less than the property says; its comment says what is missing. When the code
violates a property, a further theorem proves the violation on a concrete input. These are listed under *Findings*.

## Trusted base

* The Lean 4.33.0 kernel, Mathlib, and the axioms `propext`, `Classical.choice`, `Quot.sound`. No `sorry`, no
  `native_decide`, no `bv_decide`, no added axiom. `decide +kernel` is used on finite tables and concrete inputs.
* The reading of Python: slices, `dict` order, `struct`, integer arithmetic, generators.
* The reading of numpy: `uint32`/`int32`/`int64` wrap-around, IEEE-754 round to nearest even for `+ - * /`, `np.round`,
  truncating `astype`, `frombuffer` and its `ValueError` on ragged input.
* The reading of pyarrow: windows, `take`, `cast`, `is_null`, `if_else`, masks.
* The reading of the `strptime` of glibc and pyarrow, for C80 only, and of polars with chrono, for C101 only.
* The reading of expat: which events it sends for a text (C84), and that it splits character data at 8192 bytes.

### What is a parameter of the model rather than modelled

Theorems hold for every value of these parameters.

* `Env`: text to number (an instance is `Model/ArrowText`, C89) and number to text casts of Arrow, Python's `int()`/`float()` on text (an instance is `Model/NumText`, C87), `strptime` for one format (instances are `Model/StrptimeLib`, C80, and `Model/StrptimePolars`, C101), the text of a timestamp (an instance is `Model/ArrowRender`, C98),
  and the list of default datetime formats.
* `Lib`: the arrays of the final table and their casts, used by the `dtypes` argument. Its laws are `Lib.Lawful`.
* `search` and `reMatch`: compilation and search of user-supplied regular expressions (`lookup_head`, `row_filters`).
* `isNull`: the predicate made from `null_values`. `C48` proves how the constructors make it.

### Modelled

| source | model | what |
|---|---|---|
| `biff.py` | `Model/Biff`, `Model/Prelude` | record writer, plain scanner, accelerated block scanner |
| `biff_enum.py` | `Model/BiffEnum` | the whole table |
| `biff_recs.py` | `Model/Recs` | `xstr`, `BrtBundleSh`, the UTF-16 codec |
| `rels.py` | `Model/Rels` | `Relationship`, `scan_xml`, `dump_xml`; `col_idx` of `xlsx.py` |
| `chunk/arrow.py` | `Model/ArrowFn` | `arrow_fn` and the functions it wraps |
| `chunk/casts.py` | `Model/F64`, `Model/Casts`, `Model/Strptime`, `Model/StrptimeLib`, `Model/StrptimePolars`, `Model/NumText`, `Model/Buffer`, `Model/ArrowRender` | RK numbers, serials, integer detection, masks, `mf_strptime`, numbers of texts, raw buffers |
| `chunk/chunk.py` | `Model/Chunk` | null slices, `take`, `take_over`, `prepare`, `as_numeric`, `as_temporal`, `concatenate` |
| `cell.py`, `series.py`, chunk constructors | `Model/Series` | column building |
| `reader/xlsb.py` | `Model/Xlsb`, `Model/NumFmt`, `Model/Null` | sheet list, shared strings, styles, cells |
| `reader/xlsx.py` | `Model/Xlsx`, `Model/Queue` | the same as state machines over expat events; the queue between the threads |
| expat, `zipfile` | `Model/XmlText`, `Model/Archive` | XML text to events, entries to parts |
| `reader/common.py` | `Model/Read`, `Model/ReadXlsb`, `Model/ReadXlsx`, `Model/ReadFile`, `Model/Book`, `Model/Accel` | `read`, header composition, header lookup, filters, `dtypes` |

### Not modelled

* The zip layer (compression, checksums) and I/O errors. An archive is its list of entries with their bytes.
* DOCTYPE, encodings other than UTF-8 and namespaces in XML; the inner workings of expat.
* `numba` compilation itself, including `fastmath`. The accelerated code is modelled as what its Python text says.
* The conversions of `strptime` that the default formats do not use, in pyarrow, polars and chrono alike.
* `core.py` (decorators, feature detection) apart from the packing functions; the notebook.
* NaN payloads, signed zero, subnormal results, and the quiet/signalling distinction: a double is NaN, an infinity, or a
  rational number.
* Memory: aliasing and lifetime of buffers. Out-of-range reads with `boundscheck=False` are a distinct error value.
* Thread scheduling below the granularity of one `put`/`get`.

## Properties

How each one is modelled and proved. `MANIFEST.json` has the theorem names and the status of each.

* **C01–C04, C07** (writer, truncation, filter, sizes). Induction over the record list; the scanner is structural on fuel
  bounded by the input length. C03 uses a specification `wholeBefore` that knows only the lengths of the records.
* **C05, C06** (accelerated scanner). A fuelled loop; an invariant on the carried remainder relates it to the plain
  scanner. Non-termination is "no amount of fuel suffices".
* **C08**. Kernel evaluation over the 845 entries, then lifted to all payloads.
* **C09–C11**. A full model of Python's `utf-16` decoder (byte-order mark, surrogates, strict errors).
* **C12**. `dump_xml` writes characters; attribute reading follows the XML recommendation (references, white space).
  `C12_parsed_roundtrip` is the round trip through the whole parser of C84.
* **C13**. Against bijective base 26, defined separately.
* **C14–C22**. `rnd : ℚ → ℚ` is IEEE round to nearest even, proved nearest (`C14_rounding_nearest`), monotone, exact on
  representable numbers. RK words are 32-bit vectors.
* **C23, C24**. For every one-format parser; masks as byte lists.
* **C25–C32**. A chunk denotes a list of optional values; every operation is proved against list operations. C32 treats
  the mutation of the chunks as state and quantifies over call histories.
* **C33–C36**. The column builder is a state machine with an invariant over all histories of added cells.
* **C37–C41**. `iter_worksheet` as a state machine, refined to a row-by-row specification; C38 gives the exact behaviour
  of every `skip_rows`/`take_rows` pair in both formats.
* **C42, C43**. Events of well-formed sheet documents; the two readers are compared on one logical sheet.
* **C44**. Small-step interleaving of producer and consumer with an unbounded queue; progress, order, termination.
* **C45**. The parser thread may fail at any event.
* **C46–C48**. Shared strings and null predicates.
* **C49–C51**. The two regular expressions as explicit matchers with a separate specification of number formats.
* **C52, C59**. Sheet dictionaries and part names.
* **C53–C61**. `read` from delivered cells to the table. `sheetTable` (in `Spec`) describes the table from a grid of
  values. `readCells_sheet` proves the code computes it, for every `conflict_resolve`, as long as conflict resolution in
  each column depends on its values alone (`Resolvable`; always so for "no").
* **C62–C64**. Composition of all stages: XLSB from bytes, XLSX from parser events, to the table. A sheet is a list of
  rows of values (`VGrid`); `xlsxRows` and `xlsbRows` say which rows each reader gives for which arguments.
* **C65–C67**. Consequences of C63 and C64: the formats agree under stated conditions; what `skip_rows` and missing parts
  do.
* **C68**. What resolution does to a column of the table. Its findings are those of C30 and C31 seen from `read`. Inline texts beside dates are covered: the column becomes dates when every text is a date (`C68_temporal_partial`) or, with both resolutions, a serial number (`C68_serial_partial`). Shared texts beside dates raise (`C68_shared_texts_raise`, for calls without lookup, header and filters); with those the outcome depends on which chunks an earlier fetch has already prepared. The tables of C58, C62–C65 and C69 carry the same hypothesis (`Resolvable`, with `inlineColumn` saying that a column has no shared text). What resolution does in every other case is exact too: rows carry the number of their run (`Spec/Runs.lean`), and `C68_exact` says that `read`, with any arguments, is the table of the columns resolved run by run, for all texts and settings, as long as no column has both moments and shared strings. `C68_numeric_exact` and `C68_temporal_exact` say when the column becomes numeric or temporal and which texts are rewritten when it does not.
* **C69**. `readFile`: `read` with all its arguments, composed with C63 and C64.
* **C70**. `dtHasT`, `dtHasD` compute in float64, as numpy does for int64 with uint64. The spec is integer division of the timestamp by a day. Nothing in the package calls the two functions.
* **C71**. `guF8ToRk` beside `f8ToRk`; agreement by bounding the rounded sum, disagreement from 2^31 on computed for all whole numbers below 2^40.
* **C72**. `Record.repr` with its format codes; the spec of the number is `groupsValue`, as in C07; 45 names against the record numbers of MS-XLSB. Injectivity by cutting the text at its separators.
* **C73**. `colIdxNumba` computes on 64-bit words; homomorphism from the integers.
* **C74**. C01 and C04 applied to the id set of the sheet reader.
* **C75**. `Model/Accel` is `read` with the compiled scanner of C05 and C06 and the compiled column parser of C73; the
  result is `none` while the scanner has not returned after `n` steps. Same table for whole records and proper
  references, for both formats and all arguments; `C75_cut_part` is the other case.
* **C76**. `Spec/Opc` resolves a target as the package standard does. Equal for relative targets without dot segments.
  For absolute targets, no file with them can be read.
* **C77**. `Xml.Alike` relates documents that differ only in other elements and attributes; the whole reading function is
  shown to respect it. `withoutOther` removes what stands between cells.
* **C78**. `Spec/Date1904` has the other date system. The flag is shown to have no effect in either format, and the
  resulting dates to be 1462 days early.
* **C79**. Constants (tags, attributes, part names, record numbers, words of options) occur on both sides of other
  theorems, so a wrong constant would not be noticed there. Here minimal documents with the names written out are read:
  a sheet list, a shared string table, a format with its cell format, a cell; the ids of the XLSB sheet records are looked
  up by name in the record table.
* **C80**. `Model/StrptimeLib` is the `strptime` of glibc as pyarrow calls it, for the conversions in the default formats
  (library code, trusted). `Spec/DateText` writes dates and times; `DaysFromEpoch` counts calendar days. The proof follows
  the 44 formats in order: an invariant on the first non-digit rules out formats with another separator. `C80_exact` gives the
  outcome for every column of texts in these styles, `C80_right_exact` the condition under which it is right.
* **C81**. The examples of the README as calls of `read` on columns; the filter theorems of C56 and the names of C60.
* **C82**. `Model/Book` is the state machine of `XlsxWorkbook` and `XlsbWorkbook`: the archive (`None`, open, closed), the
  three `cached_property` values and `null_shared`; operations open (with the content the file then has), close, the three
  properties, `list(iter_worksheet(...))`. Theorems are over all histories: invariants by induction on the history. Not in
  the machine: a file that is no archive, a partly consumed iterator.
* **C83**. `Model/ArrowFn`: Python's binding of arguments to a signature, the three wrappers made by `arrow_fn`, and the
  eight wrapped functions. Arities and signatures of the options are those of pyarrow's documentation.
* **C84**. `Model/XmlText` is an XML 1.0 parser as a machine over characters: declaration, tags, attributes, references, comments,
  CDATA, processing instructions, line ends, byte-order mark, UTF-8. `Spec/XmlText` says how a document may be written
  (`XmlForm`), `Spec/XmlWrite` writes a tree. The proofs run the machine over each form; `C84_cut` follows every cut inside the root.
  `C84_exact` is an equivalence: from an accepted text the proof rebuilds the form it is written in, mode by mode. `C84_classes`
  restates the character classes by code points.
* **C85**. `Model/Archive` reads the parts from the entries of a zip archive (last entry of a name wins, as in `zipfile`).
  `C85_xlsx` and `C85_xlsb` compose C84 with C69. `Spec/XlsxWrite` writes a whole XLSX workbook as entries; `Spec/XlsbWrite` does the same
  for XLSB (all names spelled out in `C85_vocabulary`); `C85_written` and `C85_written_xlsb` say they are read back as the table of their values.
  `C85_written_full` and `C85_written_xlsb_full` (Props/FullWrite) allow null shared strings and any `conflict_resolve`; the result is the outcome of the cells, an error included.
* **C01, C05, C06 on any bytes**. `Splits b rs t` (Spec/Biff.lean) says, without the scanner, that `b` is the records `rs` followed by `t` that starts no complete record. Every byte sequence splits in exactly one way; the plain scanner returns those records (`C01_any_stream`), the accelerated one returns them too or never finishes, and finishes exactly when nothing is left over (`C05_any_stream`, `C06_exact`).
* **Cells without a text** (`Spec/Held.lean`, `Props/Held.lean`). A reference to a shared string stored as `None` is a
  cell of its run without a value. `C68_held` gives the whole table for sheets with such cells, for every setting of
  conflict resolution; `C53_held_names`, `C55_held_lookup`, `C57_held_row_count` and `C58_held_within_partial` are the
  properties of headers, lookup, row count and lost rows in that generality (they ask for `ValidCells` and not for
  `PresentCells`/`Resolvable`).
* **Readings** (`Spec/History.lean`, `Lemmas/History*.lean`, `C68_history`). A run of shared strings is a run of
  references until one reading takes it whole; `StringChunk.take` then replaces the references by the texts for good.
  Temporal resolution of references raises. So whether a column can be read depends on the readings before. The spec
  lists the readings of a call in order (`sheetReadings`: lookup, header, filters, table) and says which of them fails
  (`HCol.clash`). `C68_history` is an equality for all valid cells and all settings: `ArrowNotImplementedError` if one
  of the readings fails, else the table. The proof follows the chunks of a column through the readings
  (`Series.After env o C done s`: the state of a column after the readings `done`).
* **C63, C64, C69, C85 in full** (`Props/FullRead.lean`). `C63_xlsx_full`, `C64_xlsb_full`, `C69_*_full`, `C85_*_full` drop
  three conditions of the earlier theorems: columns need not be `Resolvable`, texts of shared strings may be null, and an
  XLSB sheet may be without values. A sheet is rows of cells with a kind and a value that may be missing (`HGrid`); columns
  are resolved run by run as in C68. For XLSB a cell of a null shared string is left out unless it is the first cell
  delivered (C48); `keepFirst` says so. The outcome includes the exception of temporal resolution among
  shared strings (`HGrid.outcome`, as in `C68_history`). Without data rows it is `ValueError`, provided that a column read first ends at the header (`DataOrEnd`); `C57_data_or_end`: so it is if a cell is in the first row and there are no filters, in particular when empty rows are dropped. What remains: row filters, or a first row without cells, with no data rows; there a window of length 0 or less reads rows (`C57_zero_length_finding`). `C85_last_entry`: an archive
  entry that is followed by another of its name has no effect. `C12_part_exact` and `C85_bad_rels`: what any bytes of the
  relationship part give.
* **C86**. `Model/Buffer`: an Arrow array of elements of fixed size as `buffers()` shows it (value buffer, offset, length,
  bitmap), and the two raw conversions. The elements are those of the Arrow columnar format. `C86_view_exact` says exactly
  when the view is the elements; the callers in `chunk.py` pass results of casts and of `strptime`, which are not slices.
* **C87**. `Model/NumText` is Python's `float()` and `int()` on text after CPython's sources (strip, underscores, sign,
  `inf`/`nan`, digits, exponent, correct rounding), so that `Env.pyFloat` and `Env.pyInt` have a concrete instance. The
  specification writes decimal numbers digit by digit and gives their value by place. `float_gap`: two binary64 numbers are
  never closer than one part in 2^53, which makes 17 digits enough.
  `C87_exact` and `C87_int_exact` say for every text whether it is a number and which (`Spec/Numbers`: what writes a number,
  underscores between digits).
* **C88**. `Spec/TwoFormats` is one workbook (numbers as bits and as decimal text, shared strings, number formats) with a
  writer for either format (`DBook.xlsx`, `DBook.xlsb`, by way of the writers of C85). `C88_same_table_partial`: the two archives are
  read as one table, that of the values, with Python's `float` and `int` of `Model/NumText`. `C88_formats`: exactly which
  number formats satisfy the condition on formats. `C88_general`: the finding. `C88_full`: for any `conflict_resolve`
  the two archives give the same table or the same error; the tags of numbers differ between the formats, and `Lemmas/Relabel`
  shows that only equality of tags matters.
* **C89**. `Model/ArrowText` is Arrow's cast of a text to a number (library code, trusted). `C89_exact`: exactly the texts of
  decimal numbers without plus sign, and the words for infinity and NaN, are numbers. `Spec/Meaning` says what a cell means among
  numbers and among moments; `C89_xlsx_partial` and `C89_xlsb_partial` say that the archive read with `conflict_resolve="all"`
  gives columns of meanings, from the bytes of the entries on. No date is also a number (`C89_date_is_no_number`).
* **C90**. The theorems on whole reads hold for any sign of `skip_rows_after_header`: `take_over` treats a negative offset as 0
  (`Lemmas/NegOffset`), while the length grows. `C90_exact` says when all rows returned are rows of the sheet, and
  `C90_extra_rows_null` that the others are null. A negative `header` is modelled but only in the concrete witness.
* **C91**. `size` against the length of the data, for every way to make a chunk; the predicates of a chunk against the cells
  it denotes (`Spec/Chunk`).
* **C92**. `Series.toArrow` and `Series.toUtf8` on a series without chunks. `read` makes a column only when it has a cell, so the two findings are for direct users of `xl_series`.
* **C93**. The specification `fields` (`Spec/Padding.lean`) is `visible` of C49 without the characters after `_` and `*`. C93 holds where padding is not as wide as a date letter; the code knows no padding.
* **C94**. `Spec/Xstring.lean` defines how a writer stores a text (`stored`) and what a stored text means (`meant`); `C94_meant_stored` shows that they fit. The code returns the stored text. Shown for shared strings; texts of formula cells and sheet names are returned as stored in the same way. (The writer of C85 and C88 stores texts as they are, so those theorems speak of the stored text.)
* **C95**. At the level of archives (C85). Archives that agree on the fixed names and on one sheet part are read alike, for
  all arguments; so the order of entries, other sheets, content types and properties do not matter. The four fixed
  names of a format are shown to be necessary.
* **C96**. `Spec/Elapsed` has elapsed-time sections as the standard does, in any case and length. `C96_exact` says which codes
  are taken for dates; no code is wrongly taken for one.
* **C97**. `collect` is characterised column by column; every later step is shown to give the same result for columns in
  another order (a dict in another insertion order), exceptions included. The search for a pattern is the only exception.
* **C98**. `Model/ArrowRender` is a concrete instance of `Env.renderTs` (Arrow's timestamp formatter with `civil_from_days`;
  trusted like `Model/StrptimeLib`). `civilFromDays_eq` inverts the day count for every real date: the year formula is
  monotone and right at both ends of each of the 400 years of an era. `C98_text`, `C98_injective` and `C98_column` (through
  C31) give the text of a moment. Reading the text again fails without polars: a text with one point is read by no
  default format, because conversions never consume points and no format has exactly one.
* **C99**. `readColumns_ok`/`readColumns_total` write the table of a read without search, filters and types as a map over the
  columns, each from its own collected cells. `C99_own_cells`: two reads whose cells in one column are the same, with the same
  number of rows, give the same array there. `C99_left_out_partial`: the same for all columns kept when others are left out.
* **C100**. The exceptions of `read`. `C100_reasons` goes through the outcome of a stored sheet (C63, C64) and lists every exception
  with its reason; `C100_plain` is the exact condition for a table with a header of n rows; `C100_xlsx`, `C100_xlsb` carry it to
  archives for the default arguments.
* **C101**. The same with polars. `Model/StrptimePolars` is the `strptime` of polars for the conversions in its default formats: its own
  parser for formats of fixed width, which fills missing fields from 0001-01-01, then chrono, which needs date and time (from the
  documentation of the libraries; trusted). `precise_elem` shows that all of the 89 formats that accept a text in the styles agree, so
  that their order does not matter there; `C101_exact` is the outcome of a column, `C101_texts_partial` the part where it is right,
  `C101_reread` the round trip with the texts of C98, which fails without polars. `C101_column_partial`,
  `C101_xlsx_partial`, `C101_xlsb_partial` carry it to columns and whole files with `conflict_resolve="all"`. `C101_time_alone_finding`: the formats `%r`,
  `%I:%M %p` and `%T%.f` alone read nothing. `C101_zone_finding`: no format has a zone. Two-digit years are left to C80: the two
  parsers of polars disagree on the century, and versions on blanks.
* **C102**. What a column number means. `C102_exact`: the column with number `i` in the table is column `i` of the sheet iff all
  columns of the sheet up to it have cells. `C102_table_column`: `row_filters=[i]` goes by the table, so in the table that column
  has no null. `C102_same_column_partial` puts the two together; `C102_finding` is a sheet without column A, where
  `lookup_head=1` and `row_filters=[1]` are different columns.
* **C103**. `Spec/Differential.lean` divides a style sheet into what is inside of `dxfs` and what is outside. `C103_exact` is C50
  without distinct ids: the last code of an id counts, wherever it stands. `C103_differential_partial`: differential formats whose
  ids are not those of cell formats do not matter; `C103_finding` is a whole file where one does. `C103_xlsb` holds throughout.
* **C104**. `Model/UserFns.lean` is the two readers with a callback and a null test that may raise, otherwise as before.
  `C104_xlsb` is the property for XLSB. For XLSX `C104_xlsx_exact` is the outcome in each of the three cases, `C104_xlsx_read` the one
  of `read`, and `C104_xlsx_deadlock` shows on the queue of C44 that a first call that raises blocks the caller under every schedule.
* **C105**. `Spec/CellFormats.lean` takes the `xf` elements by where they stand, the code by whether they have an `xfId`.
  `C105_exact` relates the two lists; `C105_style_number_partial` is the property when all cell formats have one.
* **C106**. `Spec/CellType.lean` has the kinds of cells that the attribute `t` can declare and the type under which a column
  takes each. `C106_exact` says for which pairs of kind and number format the reader agrees, `C106_unused` that whole files
  that differ in other values of `t` are read alike, `C106_xlsb` that XLSB goes by the record.
* **C107**. Proved for `read` in both formats: the file without its error cells gives the same result. In XLSX the error
  values of the standard are members of the null texts; in XLSB their two records are not scanned.
* **C108**. A shared string with `rPh` elements and the same without them (`Spec/Phonetic.lean`). `C108_exact` is the
  condition for one string, `C108_guides_partial` is for whole files whose strings are not blank or null.
* **C109**. Two files for one sheet: with and without elements for the empty rows (`Spec/Gaps.lean`). For XLSB without
  counting of empty rows the results are equal (`C109_xlsb_partial`, all other arguments); for XLSX only rows above the first
  one can be left out.
* **C110**. `Model/Abandon` is C44 with a consumer that leaves after `want` cells, and with the file: closing it is two
  assignments of `zipfile` (`_SharedFile._file = None`, then `closed`), reading a block is the check of `closed` and three
  accesses to `_file`, each its own turn. `C110_prefix`, `C110_ends`, `C110_no_deadlock`, `C110_terminates`, `C110_unread` and
  `C110_whole` hold under every schedule. `C110_quiet_partial` says with which error the thread ends if no turn falls between
  the two assignments. Trusted: the text of `zipfile` in the standard library.
* **C111**. `Spec/LongText` says what pyexpat's buffer of 8192 bytes may do to a text (`Buffers`; trusted). `C111_first_piece` is a
  theorem on whole reads: of texts that follow each other only the first that is neither blank nor null counts, because a column
  ignores a second cell of the same row and `must_be` is off after the first text of a shared string. `C111_shared_exact` and
  `C111_cell_exact` are equivalences; `cutGo_buffers` shows that the assumption can be met.
* **C112**. A frame property of whole reads. `readCells_blind` (`Lemmas/Options`) carries two reads side by side whose columns
  differ in the options only, through header, lookup, filters and fetches; all that is left is that `concatenate` does not tell
  the options apart. For `C112_formats` that is immediate (`formats` is looked at under `conflict_temporal` only). For
  `C112_one_sort` every column keeps chunks of one class through all its fetches (`OneSortCol`). `C112_mixed_depends`,
  `C112_numeral_depends`, `C112_precision_depends`: each condition is needed.
* **C113**. The model strips where the code strips (`sharedXml`, `xlsxText`); the specification (`Spec/Blanks`) lists the blank
  characters by code point and says when two texts have the same core. `C113_xlsx_same` (two files alike but for outer blanks are
  read alike) goes through the shared strings and the worker event by event. `C113_shared_exact` and `C113_cell_exact` say which
  texts come out as they stand. `C113_xlsb` puts together `C46_xlsb_aligned` and `C37_cell`.
* **C114**. `C114_exact` gives the outcome of `xlsxStyles` on every part, exception by exception; `C114_read_refused` carries the
  KeyError to whole reads. `Spec/OptionalFmt` writes the default of the standard out (`XmlDoc.filled`); `C114_filled_partial`:
  then every part that keeps the standard is read.
* **C115**. The only places that leave their buffers are `takeShared` (`boundscheck=False`) and `dataToArrow` (a buffer view
  without a length check); `C115_lookup_exact` and `C115_payload_exact` say when. `C115_xlsx_partial`, `C115_xlsb_partial` and
  `C115_file_partial` carry it to whole reads: if the references of the delivered cells can be followed (`Spec/Memory`),
  `read` returns or raises, for every file and all arguments (`Lemmas/Memory`, `Lemmas/MemoryRead`: an invariant of chunks and
  columns kept by every step, also when a step changes a column). Missing: references that cannot be followed, for
  which the code itself is at fault (`C115_memory_finding`). The memory safety of Arrow, numpy, numba and expat is trusted.
* **C116** (`Spec/InCell`, `Lemmas/InCell`, `Props/InCell`).  `valueEvents` keeps of a worksheet its `c` elements, the `v` elements with their texts and the ends of rows; `C116_sheet` says the worker delivers the same from it, for every part, well-formed or not; `C116_xlsx` lifts this to `readFile` with all arguments.  For XLSB `valueRecords` cuts every cell record behind its value and drops the other records (`C116_xlsb`).
* **C117** (same files).  Texts in the cell itself: `C117_xlsx_lost` and `C117_xlsb_rich_lost` say that files with and without the `inlineStr` cells (records 62) are read alike.  `C117_xlsb_partial`: records 6 and 8 are delivered with their text; missing are the formatted texts and XLSX as a whole, where the claim is false.
* **C118** (`Spec/SkipCols`, `Lemmas/SkipCols`, `Props/SkipCols`). C40 and C99 put together for whole files, with any row
  arguments. `C118_xlsx_cells` and `C118_xlsb_cells` run the loops with and without `skip_cols` side by side: for XLSX it is
  enough that the first row with a value keeps one, for XLSB no row may lose its last value unless empty rows count.
  `C118_xlsx_partial`, `C118_xlsb_partial`: then the arrays left are the same ones, if the table keeps its height.
* **C119** (Model/ReadFile, Spec/TakeRows, Props/TakeRows). The comments in the signature of `read`: `take_rows` takes
  rows after the header, `skip_rows_after_header` is ignored unless the header is a positive number of rows, and texts
  that are numbers are detected. `C119_xlsx` and `C119_xlsb` say what happens for every file whose sheet has a column
  with a value in every row: `take_rows=t` leaves the first `t + 1` rows of the sheet, and from these the header and
  the skipped rows are taken off, whatever the header is; a column of texts keeps its texts. `C119_promise` compares
  this with the promise (`rowsPromised`): with `take_rows` it is kept exactly if header and skipped rows are one row
  together. Lookups and row filters are left out of these theorems (C57 counts rows for them).
* **C120** (Model/ReadFile, Spec/SortRows, Props/SortRows). Reading a file and reading the same file with the rows below
  the header in another order. `C120_xlsx_partial`, `C120_xlsb_partial`: if both are read with the same arguments, the
  rows of the second table are those of the first in the new order, with the same names and types, in every column
  alike. The files may differ in everything else (other shared strings, other cell formats) as long as the values are
  the same rows. Conditions: some column has a value in every row, and the columns can be resolved value by value
  (always so with `conflict_resolve="no"`). Without the conditions it is false: `C120_rows_finding`,
  `C120_resolution_finding`. Filters, lookups, requested types and `take_rows` are left out.
* **C121** (where the table stands). `Spec/Moved.lean` relates two files: the events (XLSX) or records (XLSB) of their
  worksheets are the same one by one, except that a cell in column `k` of the one is in column `f k` of the other, for
  any strictly increasing `f` – empty columns inserted or removed anywhere. The references are spelled by `colName` with
  any row digits, the column numbers of records are four bytes. `C121_xlsx`, `C121_xlsb`, `C121_file`: with `skip_cols`
  and a numeric `lookup_head` moved in the same way, `read` gives the same table or the same exception – for any sheet,
  well-formed or not, and any arguments. Proved by relating the runs of the two machines (`runXlsx_move`,
  `iterXlsb_move`) and by a lemma for every step of `read` after that (`Lemmas/Moved.lean`): the dictionary of columns
  is used through its keys' order only. `row_filters` is not moved: its integers are positions in the table
  (`C121_two_counts`, see C102: the same number, 1, is the second column for `row_filters` and a KeyError for `lookup_head`).
* **C122** (round trip of a table). `Spec/Stored.lean` says what a table is (named columns of texts, whole numbers, other
  numbers or moments, with missing values) and which sheet it is stored in (`STable.grid`: a row of names, then the rows).
  `C122_grid` proves that the table of this sheet, read with `header=1`, is the table again: names, values and Arrow types;
  `C122_stored_partial` proves it for the whole read of an archive, XLSX or XLSB, of any workbook that has these values on
  the sheet asked for (via C88). Duplicate names are allowed and stay; any conflict resolution may
  be asked for (there is nothing to resolve), by dates only if no column has moments. Missing: what C88 leaves out, tables whose
  types cannot be told from their values (`C122_conditions`: nearly whole numbers, a column without values), tables with a row
  without values. The example stores a table of four columns in a second sheet.
* **C123** (whole numbers come back as integers). Over the IEEE model of C14. `C123_accepted_partial`: numbers up to
  `2^53 / 5^float_precision` in magnitude count as integers (576 460 752 303 for the default 6). `C123_exact` is an iff up to
  the next power of two: beyond this bound the even numbers count and the odd ones do not. The reason is that `np.round`
  multiplies by `10^p` and divides again, which is not exact there. `C123_finding` spells this out for 6 digits and
  `C123_file_finding` for whole files of both formats; `C123_every_precision` has a number for every precision from 1 to 21;
  `C123_column`: one such number turns its whole column to doubles. Missing: which larger numbers count (some do).
* **C124** (reading is idempotent). `Lemmas/RoundAgain.lean` proves over the IEEE model that a number which counts as whole
  still counts as whole once it has been truncated (`whole_again`; the rounding errors on both sides have to be compared).
  `C124_column`: the values of any array that the code makes, stored and read again with the same `float_precision`, give that
  array, whatever the conflict resolution. `C124_table`: whatever was read from a sheet, with any header, filters, lookups and
  conflict resolution but without `dtypes`, comes back unchanged when it is stored (`Spec/Again.lean`, the sheet of C122) and
  read with `header=1`. `C124_file`: the same with the second read made of an XLSX or XLSB archive. In contrast to C122 nothing is
  asked of the values. The table must have a row, and no row and no column name without a value; for XLSB empty rows
  are skipped indeed (`C124_rows_finding`). Not covered: `dtypes`, temporal resolution in the second read of a file.
* **C125** (reading in parts). `Spec/Parts.lean` says how the array of a column follows from those of its two parts: same type,
  concatenation; a part without values adds nulls; else the types join (int64 and double give double, all else text).
  `C125_column` proves this for all values, `C125_table` for sheets (the first `m` rows, and the others by
  `skip_rows_after_header`), `C125_xlsx` and `C125_xlsb` for whole reads of files: `take_rows=t` and
  `skip_rows_after_header` = `t + 1` less the header rows (`take_rows` takes a row more, C119). Conditions: a column with a value
  in every row, all columns have a value in the first part, no lookup, filters, `dtypes` and conflict resolution.
  The values are those of cells, so none is an int64 (`plain_xlsx`, `plain_xlsb`; this also holds for C124).
* **C126** (what the table shows). `Spec/Faithful.lean` says when a table shows a sheet: its columns are the columns of the sheet, its
  rows are rows of the sheet in their order, and every value is that of the cell: texts and moments themselves, numbers as the
  same double, as an integer to `float_precision` digits (the bound of C22), or as text in a mixed column; empty cells are
  nulls. `C126_table` proves it for every header, lookup, filter and strategy, `C126_xlsx` and `C126_xlsb` for whole reads with all
  row and column arguments, without `dtypes` and conflict resolution (C68), if no number is outside the range of `int64`.
  `C126_large_finding`: numbers n·2^k from 2^63 on with |n|·5^p ≤ 2^53 (all powers of two, for instance) count as whole numbers
  and become -2^63, on x86 (C leaves the conversion undefined); `C126_file_finding` is a file in both formats.
* **C127** (only names, links, formats, texts and values count). `C127_xlsx`, `C127_xlsb`: two files of the same kind that
  say the same are read alike for all arguments of `readFile`, errors included. What a file says is defined part by
  part in `Spec/BookParts.lean`: the names and links of the sheets (`bookSheets`, `sheetSays`), the links to worksheets
  (`bookLinks`), number formats and the format ids of cell formats (`bookFormats`, `formatSays`), the texts of the shared
  strings (`bookTexts`, `textSays`) and the values of the sheets (`SameValues`, `SameValueRecords` of C116). So the state of
  a sheet (hidden), its number, the date system, views, defined names, fonts, fills, borders, properties of runs, flags and
  readings behind a shared string, and records of other kinds have no influence. That the date system has none is also the
  reason for the finding of C78. Trusted: expat and `scan_xml` for the events; the XLSB parts compared are either equal or
  written by `write_biff`.
* **C128** (row filters take rows out and change nothing else). `C128_table` for the values of a sheet, `C128_xlsx` and
  `C128_xlsb` for files: with `row_filters` and the strategy `and`, `or` or a list of operators, a file is read as the file that
  lacks the rows empty in the columns of the filters (`VGrid.filtered`, `Spec/RowFilter.lean`) is read without filters; so the rows taken
  out count neither for types nor for conflict resolution, dtypes included. If no row is left, the read is a ValueError.
  Conditions: a column with a value in every row, no lookup, no rows skipped or taken, no column vanishes with the rows,
  filters find a column, and no NaN in the columns of the filters (Arrow takes NaN for missing). Not covered: ragged
  sheets, lookup.
* **C129** (`null_values` empties cells). `C129_xlsx_partial`, `C129_xlsb_partial`: with `null_values` a file is read as the
  file in which the cells with these texts are missing (`TGrid.emptied`, `Grid.emptied`, `Spec/NullValues.lean`) is read
  without `null_values`, for all other arguments, so headers, types and filters are those of the smaller file. Partial:
  texts stored in their cells only; `C129_finding` shows that a shared string which counts as null still makes its column
  a column of texts (C48 through `read`).
* **C130** (rearranging the columns of a sheet rearranges the columns of the table). `C130_table` for values, `C130_xlsx` and
  `C130_xlsb` for files: if column `k` of one sheet is column `σ k` of the other (`Rearranged`, any permutation), the two
  tables have the same names with the same arrays up to order, or both reads raise. Conditions (`ReadArgs.ByName`): a
  header of one row, filters and types by name, strategy `and` or `or`, no lookup; `skip_cols` is rearranged with the
  columns; for files a column with a value in every row. Two rows of header are filled from the left, so there the names
  do depend on the order (example). Not covered: which exception is raised, if several columns cannot be cast.
* **C131** (the other sheets of a workbook do not matter). `C131_xlsx_partial`, `C131_xlsb`: two workbooks with the same
  styles and shared strings have a worksheet part in common, at any position, under any name and path
  (`XlsxFile.SheetAt`, `XlsbFile.SheetAt`, `Spec/OtherSheets.lean`); asked for by position or by name, it is read alike from
  both with all arguments, errors included. So sheets can be added, removed, moved and renamed, and reading by position is
  reading by name. Partial for XLSX: all sheets have to be worksheets. `C131_chart_finding`: with a chart sheet in the
  workbook every read of every sheet is a KeyError (C52 through `read`).
* **C132** (how the values are stored does not matter). `C132_xlsx_partial`, `C132_xlsb_partial`: two files whose cells have
  the same values (`TCell.SameAs`, `GCell.SameAs`, `Spec/Storage.lean`) are read alike with all arguments: a number as RK
  number or double, constant or result of a formula, a text shared (under any number) or in its cell, other cell formats of
  the same kind, other digits of the same number. Partial: conflict resolution is off or a matter of values (`Resolvable`);
  `C132_finding`: with `conflict_resolve="all"` a text below a date raises if it is a shared string and is read if it is in its cell.
* **C133** (a list of names names the columns and changes nothing else). `C133_names`: for every file of either format,
  well-formed or not, `read` with `header=[...]` gives the arrays of `read` with `header=0` under these names; a ValueError,
  if the number of names is not that of the columns; and an exception, where the other read raises one. All other arguments
  are free, except that no filter is a pattern and no type is given by name (these go by the names, of course). Stated on
  the model without any specification of sheets (`Renames`, `Spec/Renamed.lean`).
* **C134** (`dtypes` retypes the columns of the table and changes nothing else). `C134_dtypes`: for every file of either
  format, well-formed or not, and all other arguments, `read` with `dtypes` is `read` without, followed by the casts: the
  same names, the same number of columns, each array the one of the other table with the type asked for it (`Retypes`,
  `Spec/Retyped.lean`); a ValueError exactly if a list has the wrong length or a cast fails; an exception where the other
  read raises one. Assumed of Arrow: a cast keeps the number of elements (`Lib.Lawful`). That types are compared by `id`
  only (finding of C61) is part of `retyped`.
* **C135** (the short and the long form of an argument mean the same). For every file and all other arguments:
  `C135_nulls` (a list of null values is the function testing for it; an empty list is none), `C135_formats` (one format is
  a list of one), `C135_filters` (one pattern is a list of one; an empty text or list is no filter), `C135_strategy` (a list
  repeating one operator, if accepted, is the operator), `C135_dtypes` (one type is the list repeating it and the mapping
  of every name to it, whenever the read with the one type gives a table).
* **C136** (header and `lookup_head` decide about the names and the first row, nothing else). `C136_xlsx`, `C136_xlsb`: for
  every workbook of the file models, if the header is `n` rows high and `lookup_head` finds it in row `r`, `read` gives the
  arrays that it gives with `header=0`, without `lookup_head` and with `skip_rows_after_header` increased by `r + n`, or the
  same exception (`SameData`, `Spec/DataStart.lean`). Among other things no value of the header gets into the type of a
  column. Filters and types go by position; there is a data row (as in C69). `r` is the row of the specification of C55.
* **C137** (filters by name and by position). For every file and all other arguments: `C137_positions`, if a read with
  `row_filters` by pattern gives a table, the read with the positions at which the names of this table match one of the
  patterns gives the same table; `C137_set`, of a list of positions only the set of those that have a column counts. Operators
  in `row_filters_strategy` therefore go by the order of the columns, not by that of the list.
* **C138** (all files). `skip_cols` is a set: lists with the same members among the numbers from -1 on give the same result
  (`C138_columns`; -1 is the column of an XLSX cell whose reference has no letters). All `take_rows` that, with `skip_rows`,
  reach the number of rows give the same result, and the same as no limit at all when neither `skip_rows` nor
  `take_rows_non_empty` is given (`C138_rows`). Both are inductions over the events or records of the sheet, so damaged sheets
  and sheets that raise are included. The excluded cases are the findings of C38, C39 and C42.
* **C139** (workbooks that hold a grid, as in C69). With a column number, a header found within `lookup_size` rows is the
  one found within more rows, and the table is the same (`C139_column_xlsx`, `C139_column_xlsb`). With a pattern this fails:
  the columns are searched one after the other, so with more rows an earlier column may match further down
  (`C139_finding`). Partial: the rows looked through hold texts only and no text in the additional rows matches
  (`C139_pattern_xlsx_partial`, `C139_pattern_xlsb_partial`). Numbers are left out, because the text of a number depends on the
  other cells of the window.
- **C140 (looser strategies keep more rows)** — proved. `Strategy.LooserBy` compares the operators that two strategies put
  between the filter columns: the same, or `or` instead of `and`. `C140_mask`: on columns in any state, with any offset and
  length, a row kept by a strategy is kept by a looser one, and the columns are left in the same state. `C140_rows`: two
  reads of the same cells that both give a table give the same names, and with the looser strategy at least as many rows.
  `C140_kept`: the rows that C128 says are read form a subsequence of those read with the looser strategy. `C140_ends`:
  `and` is the strictest strategy, `or` the loosest. Not claimed: that the looser read gives a table whenever the stricter
  one does; with more rows a column may get another type and a cast asked for by `dtypes` may fail.
- **C141 (the list of datetime formats)** — proved. `momentBy` is the moment that a list of formats gives to a text: that of
  the first format with a moment other than zero. `C141_strptime`: `mf_strptime` gives every text this moment or refuses
  the array. `C141_same`: lists that give every text the same moment read every file alike, with all other arguments.
  From it: a format can be repeated (`C141_repeated`), the default formats can be written out (`C141_defaults`),
  neighbouring formats that fit no common text can be exchanged (`C141_exchange`), a format that fits no text can be left
  out if it is not the only one (`C141_useless`). `C141_appended`: formats that are appended do not change the moments of an
  array that was recognised without them. `C141_order_matters` shows that the order counts where a text fits two formats.
  The parser of one format is a parameter. A moment of zero (midnights up to 1 January 1970, the time 00:00) counts as not
  recognised, which is finding C23.
- **C142 (with fewer digits no integers are lost)** — partial, over the IEEE model of C14. A column that is delivered as
  integers with `float_precision=p'` should be delivered as the same integers with a smaller `float_precision`. Proved for
  arrays and for the columns of C69, with any conflict resolution, if `p' ≤ 15` and the numbers are at most `2^51 / 10^p'` in
  magnitude (`C142_array_partial`, `C142_column_partial`; 2 251 799 813 for 6 digits), and for whole numbers up to
  `2^53 / 5^p'` (`C142_whole_partial`). False beyond: 2 882 303 761 519 is an integer with 6 digits and a double with 5
  (`C142_finding`, `C142_file_finding` for files of both formats, `C142_every_precision` for every precision from 1 to 14).
  Missing: the numbers between these bounds and the counterexamples.
- **C143 (more row filters)** — proved. `C143_mask`: for columns of any contents, under `or` every row kept by some filter
  columns is kept by more of them, under `and` every row kept by more filter columns is kept by fewer. `C143_rows`: two
  reads of the same cells, valid as in C68, that differ in `row_filters` and both give a table have the same names, and the
  one with more filter columns is at least as long under `or` and at most as long under `and`. `C143_kept`: the rows that
  C128 says are read form a subsequence. `C143_positions`: a longer list of positions gives more filter columns. With a list
  of operators both can happen (examples).
- **C144 (the way of looking for the header)** — proved, for cells as in C68 and workbooks as in C69. `lookup_head` and `lookup_size` count only through the row they find. For
  every setting of conflict resolution and all valid cells, two ways of looking that find the same row, with a data row
  below, give the same table if both give one (`C144_cells`); if no column has both moments and shared strings the
  exceptions are the same, too (`C144_result`). For workbooks that hold a grid: `C144_xlsx`, `C144_xlsb`, here also if both
  find no row. All need `lookup_size > 0`; `C144_finding` shows why.
* **Exact conditions**. Where the code violates a property, a theorem named `_exact` gives the condition under which the property holds as an equivalence, or the outcome in every case: `C06_exact`, `C09_decode_exact`, `C12_part_exact`, `C16_exact`, `C23_exact`, `C24_exact`, `C25_exact`, `C27_no_length_exact`, `C30_exact`, `C38_window_exact`, `C38_xlsx_window_exact`, `C43_exact`, `C45_exact`, `C47_exact`, `C51_exact`, `C54_exact`, `C58_exact`, `C65_rows_exact`, `C68_exact`, `C68_history_exact`, `C68_numeric_exact`, `C68_temporal_exact`, `C70_date_part_exact`, `C71_exact`, `C75_exact`, `C76_exact`, `C80_exact`, `C80_right_exact`, `C82_closed_exact`, `C84_exact`, `C86_view_exact`, `C87_exact`, `C87_int_exact`, `C89_exact`, `C90_exact`, `C29_exact`, `C31_exact`, `C91_xlsb_exact`, `C19_exact`, `C92_mask_exact`, `C35_exact`, `C39_exact`, `C42_exact`, `C66_exact`, `C94_exact`, `C94_exact_text`, `C96_exact`.

## Findings

Behaviour of the code that contradicts a property or its documentation. Each is a theorem with a concrete input.

| id | theorem | behaviour |
|---|---|---|
| C05 | `C05_empty_set_differs`, `C05_high_id_differs` | with numba an empty `only` set yields nothing, and ids above 0x7FFF are read differently |
| C06 | `C06_numba_diverges` | with numba, scanning a stream that ends inside a record never returns |
| C09 | `C09_leading_mark_lost`, `C09_short_payload_accepted` | a leading U+FEFF is dropped; a payload shorter than its length field is accepted |
| C10 | `C10_dump_load_never` | `xstr.dump` writes a length `load` does not understand: no non-empty string survives |
| C12 | `C12_unescaped_witness` | `dump_xml` does not escape |
| C13 | `C13_lowercase_witness` | lower-case references give wrong columns |
| C16 | `C16_not_roundtrip` | `f8_to_rk` of −5 reads back as −4 |
| C16 | `C16_negative` | `f8_to_rk` of every negative integer or number of hundredths reads back one unit nearer zero |
| C17 | `C17_day60` | serial 60 becomes 28 February 1900, as serial 59 |
| C19 | `C19_millisecond_lost` | 2024-01-01 00:02 comes back one millisecond early: the product is truncated, not rounded |
| C20 | `C20_drops` | serials just above 1 and 60 are earlier than those just below |
| C21 | `C21_whole_days` | `ms_to_f8_win` does not invert serials 1..25569 |
| C22 | `C22_out_of_range` | 2^70 and infinity count as integers |
| C23 | `C23_zero_is_lost`, `C23_later_format_wins` | a string that parses to a midnight up to 1970-01-01 counts as not parsed |
| C24 | `C24_two_bytes_wrong` | masks longer than 8 elements come out with their bytes reversed |
| C25 | `C25_null_slice_wrong`, `C25_grows` | slices of null chunks have the wrong length |
| C26 | `C26_negative_index` | negative integer index |
| C27 | `C27_no_length_drops_rows` | `take_over(offset)` without length drops rows of later chunks |
| C29 | `C29_null_becomes_zero`, `C29_empty_mask_fails` | an empty cell becomes 0 under numeric resolution; a filter that keeps no row raises |
| C30 | `C30_shared_strings_fail` | shared strings with datetime resolution raise `ArrowNotImplementedError` |
| C30 | `C30_exact` | the exception is raised exactly when the column has a moment and references to shared strings |
| C31 | `C31_text_lost` | "007" becomes "7", a number becomes a date text, when resolution fails half-way |
| C32 | `C32_row_lost`, `C32_history_decides` | materialising a column changes it; a later call loses a row |
| C33 | `C33_xlsx_run_becomes_text` | one bad number in an XLSX run turns the whole run into text |
| C35 | `C35_too_short` | `len(column)` ignores empty rows at the top |
| C36 | `C36_bleeds`, `C36_short_index_undefined` | wrong payload widths shift later cells |
| C37 | `C37_row_number_ignored` | the row number stored in a row record is ignored: sparse sheets move up |
| C38 | `C38_only_one_row`, `C38_default_delivers_nothing`, `C38_xlsx_cut` | `skip_rows` without `take_rows` reads one row (XLSB); with the default `take_rows_non_empty=False` it reads nothing |
| C39 | `C39_xlsx_too_many` | leading empty rows make `take_rows` return too many rows (XLSX) |
| C40 | `C40_rows_move_up` | `skip_cols` can make a row empty; later rows move up |
| C42 | `C42_cut_after_leading_empty_rows`, `C42_cell_findings` | XLSX: sheet cut after leading empty rows; inline strings lost; booleans as text; long texts split; cell without reference raises in the thread |
| C43 | `C43_disagree` | the same sheet has different row numbers as XLSX and XLSB |
| C45 | `C45_malformed_is_silent`, `C45_missing_reference_is_silent` | an error in the parser thread is silent: the table is cut |
| C47 | `C47_only_first_run`, `C47_second_run_lost` | only the first run of a rich-text shared string is kept |
| C48 | `C48_missing_text_makes_text` | one null value among the shared strings turns a column of numbers or dates into texts |
| C29 | `C29_missing_text_is_zero` | with numeric resolution, a null value among the shared strings is read as 0 |
| C48 | `C48_xlsb_errors_kept`, `C48_first_cell_escapes`, `C48_shared_number_tested` | null values are missed in XLSB errors, the first shared cell, and XLSX shared cells |
| C49 | `C49_escape_findings`, `C49_semicolon_in_literal` | escapes and semicolons inside literals mislead the detection |
| C50 | `C50_numeric_test`, `C50_builtin_numbers` | "mm:ss.00" counts as numeric; "0.0", General, percentages, fractions and "0.00E+00" as text |
| C51 | `C51_length_as_text`, `C51_low_byte` | the length field is read as text; only the low byte of the format id is compared |
| C52 | `C52_chart_sheet` | a chart sheet makes every sheet of the workbook unreadable |
| C54 | `C54_duplicate_names`, `C54_discarded_names` | unique names are computed and thrown away |
| C56 | `C56_filter_without_column`, `C56_single_unchecked` | a filter matching no column, or a bad strategy with one filter, is ignored |
| C57 | `C57_header_only`, `C57_no_data` | a sheet with a header and no data raises |
| C57 | `C57_zero_length_finding` | when no column starts in row 0 the number of data rows can come out as 0 or less; 0 reads the rest of a run, -1 all but its last row |
| C58 | `C58_last_row_lost`, `C58_lookup_loses` | rows at the bottom are lost when columns start at different rows, or when `lookup_head` finds the header low in the sheet |
| C58 | `C58_beyond_span_lost` | every cell at or below the row of the greatest column span is lost |
| C61 | `C61_parameters_ignored` | types are compared by id: a request for another timestamp unit is ignored |
| C65 | `C65_disagree` | the same workbook gives different tables as XLSX and as XLSB if it has an empty row |
| C66 | `C66_skip_rows_default` | `read(skip_rows=k)`, k > 0, raises `ValueError` for every file unless `take_rows_non_empty` is set |
| C67 | `C67_missing_part` | a package without shared strings or styles part cannot be read |
| C68 | `C68_date_and_text_raises` | `conflict_resolve="temporal"`: one ordinary text in a column with a date makes `read` raise `ArrowNotImplementedError` |
| C68 | `C68_shared_texts_raise` | the same for every sheet: a column with a moment and shared texts makes a read without lookup, header and filters raise |
| C68 | `C68_lookup_size_finding` | whether a table can be read depends on what was looked at before: with `conflict_resolve` the same header and data are read with `lookup_size=2` and refused with 1 and 3 |
| C68 | `C68_number_changed` | `conflict_resolve="temporal"`: a number beside a date and a text that is no date is returned as the text of a date |
| C68 | `C68_text_changed` | `conflict_resolve="numeric"`: "007" is returned as "7" in a column that stays text |
| C69 | `C69_unknown_word` | a misspelt `conflict_resolve` is accepted and means "no" |
| C70 | `C70_old_dates_missed` | `dt_has_d` sees no date before 1970-01-03 except a non-midnight of 1970-01-02 |
| C71 | `C71_large` | whole numbers from 2^31 on are encoded differently with and without numba |
| C71 | `C71_large_negative` | whole numbers below −2^31−1 as well |
| C74 | `C74_rich_text_lost` | XLSB cells with rich text (`BrtCellRString`) are not read |
| C75 | `C75_cut_part` | with numba, an XLSB file whose workbook, styles or shared strings part ends inside a record never gives a table; without it, the table is read |
| C76 | `C76_absolute_targets`, `C76_dot_segments` | relationship targets starting with `/`, or containing `..`, are not resolved: KeyError |
| C77 | `C77_prefixed_elements` | XLSX files whose elements have a namespace prefix, or whose `r:id` has another prefix, cannot be read |
| C78 | `C78_flag_ignored_xlsx`, `C78_flag_ignored_xlsb`, `C78_four_years` | the 1904 date system is ignored: dates of such workbooks are 1462 days early |
| C80 | `C80_two_digit_year_loses_date` | `01/02/24 10:20` is read as 10:20 without a date: `%d/%m/%Y` takes 24 for the year and moments before 1970 keep their time only |
| C80 | `C80_before_1970`, `C80_midnights` | dates before 1970 with a time lose the date; midnights up to 1970-01-01 and `00:00` make the column fail |
| C81 | `C81_two_filters_mean_or` | the README says a list of `row_filters` keeps rows with a value in all the columns; the default keeps rows with a value in any |
| C81 | `C81_no_header_names` | the README says `Unnamed: 0`; the name is `Unnamed. 0` |
| C82 | `C82_xlsb_depends` | XLSB: with a null shared string, iterating a sheet gives other cells after `shared` has been read than before |
| C82 | `C82_stale` | an object opened again, after the file has changed, serves sheets, shared strings and styles of the old content |
| C82 | `C82_failed_enter` | `__enter__` on an archive that is no workbook raises with the archive left open |
| C83 | `C83_lost` | `arrow_fn`: named arguments of functions without options or with fixed options are silently ignored, e.g. `take(a, i, boundscheck=True)` |
| C12 | `C12_injection` | a quotation mark in a target ends the attribute: one dumped relationship is read back as two |
| C12 | `C12_type_uri` | `dump_xml` writes types with the namespace of relationship parts, not that of the types of ECMA-376 (`officeDocument/2006/relationships`) |
| C85 | `C85_malformed_sheet` | a malformed sheet part gives a truncated table without an error, any other malformed part raises |
| C86 | `C86_slice_and_null`, `C86_other_size` | `_unsafe_array` of a slice gives the whole array, nulls are numbers, sizes are not compared (documented as unsafe) |
| C87 | `C87_text_becomes_number` | the text of a formula in a cell with a number format becomes a number if Python's `float` takes it: `007`, `1_000`, `nan` |
| C88 | `C88_general` | a number in a cell of format General, a percentage or a fraction is a number when saved as XLSB, a text when saved as XLSX |
| C89 | `C89_plus` | the text `+5` is the number 5 in a cell of a number format (Python's `float`), but no number among numbers (Arrow's cast): the whole column becomes text |
| C90 | `C90_extra_rows_finding` | `skip_rows_after_header=-k` with k greater than the header appends k − header rows of nulls that the sheet does not have; `header=-1` takes the names from all but the last row of the first run, reads the names as data too, and appends a row (or raises ValueError if the first run has one cell) |
| C91 | `C91_converted_numeric`, `C91_converted_temporal`, `C91_converted_is_skipped` | chunks made by `as_numeric` and `as_temporal` have size 0; where they stay in a column (a fetch without window, C32), the next window skips their rows |
| C92 | `C92_mask_finding`, `C92_length_finding` | a column without cells ignores the row mask; its `len` is 1 |
| C93 | `C93_padding_finding`, `C93_styles_finding` | the number format `#,##0 _D_M` (padding as wide as the currency symbol) is taken for a date |
| C94 | `C94_escape_finding` | `_xHHHH_` sequences are not decoded: a carriage return in a cell is read as the text `_x000D_`, the text `_x0041_` as `_x005F_x0041_` |
| C95 | `C95_fixed_names`, `C95_case_finding` | parts are opened under fixed names with exact case; a package with `xl/SharedStrings.xml`, or with styles where the relationship says, raises KeyError |
| C96 | `C96_elapsed_finding`, `C96_styles_finding` | `[H]`, `[HH]`, `[hhh]` alone are not recognised as elapsed time; XLSX cells with them come back as text |
| C97 | `C97_title_finding`, `C97_order_finding` | `lookup_head` with a pattern searches the columns in the order of their first cells: a title above the second column changes which row is found |
| C98 | `C98_reread_finding` | without polars, the texts the package writes for moments (`2024-02-01 12:00:00.000`) are read by none of its own default formats |
| C99 | `C99_rows_finding` | leaving out (`skip_cols`) the column that starts at the top empties another column: rows are counted from the first cell of a column, so its lower cells fall off |
| C99 | `C99_names_finding` | with a header of two rows, leaving out a column changes the name of the column to its right |
| C100 | `C100_all_occur` | `lookup_head` with a number that is no column raises a bare KeyError, where a pattern that is not found raises ValueError with a message |
| C101 | `C101_time_alone_finding` | with polars a time of day alone is read as `13:20` but not as `01:20 PM` or `13:20:00.125`, although there are formats for them: chrono refuses a format without a date |
| C101 | `C101_zone_finding` | the README gives time zones as a reason to install polars; no default format reads one |
| C102 | `C102_finding` | a number in `lookup_head` and `skip_cols` is a column of the sheet, in `row_filters` a column of the table; with an empty column on the left these differ |
| C103 | `C103_finding` | a `numFmt` inside of `dxfs` overrides the one of its id: with a table column of percentages (id 14 there) all dates of built-in format 14 are read as numbers |
| C104 | `C104_callback_finding`, `C104_xlsx_deadlock` | XLSX: if the first call of `row_callback` raises, `read` never returns; if a later one does, `read` returns a table that ends there |
| C105 | `C105_style_number_finding`, `C105_shorter` | an `xf` in `cellXfs` without the optional `xfId` is left out, and the style numbers after it mean the next format: dates become numbers |
| C106 | `C106_type_finding`, `C106_unused` | XLSX ignores the declared type of a cell: in a column formatted as dates, TRUE becomes 1900-01-01, and a text result of a formula turns the dates of its run into the texts of their serial numbers; XLSB keeps both |
| C106 | `C106_iso_finding` | XLSX: a date stored as ISO 8601 text (`t="d"`) stays a text, and the dates around it become the texts of their serial numbers |
| C108 | `C108_guide_finding` | XLSX: where the text of a shared string is blank or null, the phonetic guide (`rPh`) stored with it becomes the value of the cell |
| C109 | `C109_xlsx_finding`, `C109_keep_finding` | empty rows that the file leaves out (Excel does) are missing in the table, those with an element are rows of nulls: XLSX always, XLSB with `take_rows_non_empty=True` |
| C110 | `C110_traceback_finding`, `C110_window_finding` | leaving an XLSX sheet early can kill the parser thread with `AttributeError: 'NoneType' object has no attribute 'seek'` (or `'read'`); only the message with `'tell'` is expected by the `except` clause |
| C111 | `C111_long_finding` | XLSX: a text of more than 8192 bytes (4096 Cyrillic letters) is cut after the first piece pyexpat delivers, silently; XLSB reads it whole |
| C69 | `C69_null_number_finding` | C48 through `read`: `null_values=["1"]` removes the cells of shared string number 1 from an XLSX sheet, whatever their text |
| C113 | `C113_blanks_finding` | XLSX: the blanks at the ends of a text (no-break spaces too) are dropped, and a cell of blanks only is missing; XLSB keeps both |
| C114 | `C114_missing_finding` | XLSX: a cell format without the optional attribute `numFmtId`, used or not, makes `read` raise KeyError |
| C115 | `C115_memory_finding` | a reference beyond the table of shared strings (both formats), or an XLSB reference whose record ends early, makes `read` look at memory outside its buffers |
| C117 | `C117_xlsx_lost`, `C117_xlsb_rich_lost`, `C117_inline_finding`, `C117_inline_refused` | texts stored in the cell (`t="inlineStr"` and XLSB record 62) are lost without an error; a row of headers written so disappears and the first row of data is taken for the header; a sheet of such texts only is refused |
| C118 | `C118_xlsb_finding`, `C118_title_finding` | leaving out a column with `skip_cols` changes the others: rows with values only there disappear (XLSB: anywhere; XLSX: at the top, so that another row becomes the header), or the last row is cut off |
| C119 | `C119_promise`, `C119_finding` | `take_rows=n` gives `n + 1` rows without header and `n - 1` with a header of two rows (the header counts as taken rows); `skip_rows_after_header` is not ignored without a header; `utf8_type_infers` does nothing: texts that are all numbers stay texts |
| C120 | `C120_rows_finding`, `C120_resolution_finding` | sorting the rows of a sheet changes more than the order: other values are lost at its end (C58), and with numeric resolution a text in an unmoved row changes (`007` or `7`) |
| C122 | `C122_conditions` | A column of numbers that are all nearly whole (to `float_precision` digits) comes back as truncated whole numbers; a column of numbers without values comes back as text |
| C123 | `C123_finding`, `C123_exact`, `C123_file_finding` | With the default `float_precision=6` every odd whole number from 576 460 752 305 to 2^40 (for instance 12-digit identifiers) counts as not whole: its column is delivered as doubles instead of int64, while the even neighbour gives int64 |
| C124 | `C124_rows_finding` | A table with a row of nulls, stored as XLSB and read again, has a row less; as XLSX it has the row |
| C125 | `C125_types_finding` | A sheet read in two parts need not give the types of the sheet read at once: whole numbers in the first part are int64, the column is double |
| C126 | `C126_large_finding`, `C126_file_finding` | A column of whole numbers with one of 2^63 or more (2^64, say) is delivered as int64 with -9223372036854775808 in its place; no error, no double |
| C129 | `C129_finding` | numbers with a "-" among them, `null_values=["-"]`: the dash is null, but the numbers become texts if the dash is a shared string |
| C131 | `C131_chart_finding` | one chart sheet in an XLSX workbook, and no sheet of the workbook can be read (KeyError) |
| C132 | `C132_finding` | `conflict_resolve="all"`: a date and the text "x" in a column are read if the text is stored in its cell, and raise ArrowNotImplementedError if it is a shared string |
| C139 | `C139_finding` | `lookup_head` with a pattern: with a greater `lookup_size` a header that was found in row 0 is passed over for a data row, because an earlier column has a match further down |
| C142 | `C142_finding`, `C142_file_finding`, `C142_every_precision` | 2882303761519 is read as an integer with `float_precision=6` and as a double with 5 |
| C144 | `C144_finding`, `C144_file_finding` | `lookup_size=0` with `lookup_head` and `conflict_resolve="numeric"`: looking for the header replaces texts by chunks of size 0 in place; the next reading leaves them out, so that values are lost and the rest of the column moves up |

Seen while reading, not proved: the name `take_rows_non_empty` says the opposite of what it does.

## Wrong programs

`seeded/LOG.jsonl` records each deliberate bug in the model, the theorems that failed and the ones tightened.
