import Verif.Lemmas.Grid
import Verif.Props.Biff
import Verif.Props.Table

/-! # Property C62: from the bytes of an XLSB file to a table -/

namespace Rxls

/-- The file holds this sheet.  `rs` are all records of the sheet part: among those the reader looks at, the row and
cell records of the grid come first, then nothing or the end of the sheet data, and after it no row record.  The texts
of the shared strings are not null. -/
structure XlsbFile.Holds (f : XlsbFile) (sheet : SheetArg) (isNull : Str → Bool) (temporal : List Bytes)
    (shared : List Str) (g : Grid) : Prop where
  path : ∃ sheets path part rs hdrs tail, xlsbSheets f.rels f.workbook = .ok sheets ∧
    selectSheet sheets sheet = .ok path ∧ f.parts path = some part ∧ writeAll rs [] = .ok part ∧
    rs.filter (fun r => decide (r.recId ∈ sheetIds)) = g.records hdrs ++ tail ∧
    (tail = [] ∨ ∃ e post, tail = e :: post ∧ e.recId = 402) ∧ ∀ r ∈ tail, r.recId ≠ 0
  styles : ∃ b, f.styles = some b ∧ xlsbStyles b = .ok temporal
  sst : ∃ (b : Bytes) (items : List (UInt8 × Str × Bytes)), f.shared = some b ∧
    scanBiff (some [19]) b = items.map (fun x => sstItem x.1 x.2.1 x.2.2) ∧ items.length ≤ 2 ^ 32 ∧
    (∀ x ∈ items, NoMark x.2.1 ∧ (utf16 x.2.1).length < 2 ^ 32 ∧ isNull x.2.1 = false) ∧
    shared = items.map (·.2.1)
  fits : ∀ row ∈ g, ∀ c ∈ row, c.Fits shared.length
  value : ∃ row ∈ g, ∃ c ∈ row, c.blank isNull = false

theorem XlsbFile.Holds.temporal_eq {f : XlsbFile} {sheet : SheetArg} {isNull : Str → Bool} {temporal : List Bytes}
    {shared : List Str} {g : Grid} (h : f.Holds sheet isNull temporal shared g) : f.temporal = .ok temporal := by
  obtain ⟨tb, t0, t1⟩ := h.styles
  simp only [XlsbFile.temporal, t0, openPart, t1]

theorem XlsbFile.Holds.strings_eq {f : XlsbFile} {sheet : SheetArg} {isNull : Str → Bool} {temporal : List Bytes}
    {shared : List Str} {g : Grid} (h : f.Holds sheet isNull temporal shared g) :
    f.strings isNull = .ok (shared.map some, []) := by
  obtain ⟨sb, items, s0, s1, s2, s3, s4⟩ := h.sst
  simp only [XlsbFile.strings, s0, openPart]
  rw [xlsbShared, s1, sharedFrom_items isNull items 0 (by omega) fun x hx => ⟨(s3 x hx).1, (s3 x hx).2.1⟩, s4,
    List.map_map]
  have : (items.zipIdx.filter fun p => isNull p.1.2.1) = [] := by
    rw [List.filter_eq_nil_iff]
    intro p hp
    have := (s3 p.1 (List.fst_mem_of_mem_zipIdx hp)).2.2
    simp [this]
  rw [this]
  rfl

theorem scan_part {rs : List Record} {part : Bytes} {l : List Record} (e4 : writeAll rs [] = .ok part)
    (e5 : rs.filter (fun r => decide (r.recId ∈ sheetIds)) = l) : scanBiff (some sheetIds) part = l := by
  rw [C04_only_filter]
  have := C01_stream_roundtrip_append rs part [] e4
  rw [List.append_nil] at this
  rw [this, show scanBiff none [] = [] from rfl, List.append_nil, ← e5]
  apply List.filter_congr
  intro r _
  have : sheetIds ≠ [] := by decide
  simp [this]

/-- The records of a grid by rows. -/
def Grid.parts (hdrs : Nat → Bytes) (tail : List Record) (g : Grid) : SheetParts :=
  ⟨[], g.zipIdx.map fun q => ⟨hdrs q.2, q.1.map GCell.record⟩, tail⟩

theorem Grid.parts_records (hdrs : Nat → Bytes) (tail : List Record) (g : Grid) :
    (g.parts hdrs tail).records = g.records hdrs ++ tail := by
  simp only [SheetParts.records, Grid.parts, List.nil_append, Grid.records, List.flatMap_map]

theorem XlsbFile.Holds.parts_ok {f : XlsbFile} {sheet : SheetArg} {isNull : Str → Bool} {temporal : List Bytes}
    {shared : List Str} {g : Grid} (h : f.Holds sheet isNull temporal shared g) (hdrs : Nat → Bytes)
    {tail : List Record} (e6 : tail = [] ∨ ∃ e post, tail = e :: post ∧ e.recId = 402) : (g.parts hdrs tail).Ok := by
  obtain ⟨row0, hrow0, c0, hc0, hb0⟩ := h.value
  have hids : ∀ c : Content, ∀ i ∈ c.ids, i ≠ 0 ∧ i ≠ 402 := by
    intro c i hi
    cases c <;> simp [Content.ids] at hi <;> omega
  refine ⟨by simp [Grid.parts], ?_, e6, ?_⟩
  · intro row hrow r hr
    obtain ⟨q, hq, rfl⟩ := List.mem_map.mp hrow
    obtain ⟨c, hc, rfl⟩ := List.mem_map.mp hr
    exact hids _ _ (h.fits _ (List.fst_mem_of_mem_zipIdx hq) c hc).2.2.2.1
  · intro h0
    have : g = [] := by simpa [Grid.parts] using h0
    subst this
    simp at hrow0

/-- The column of a grid. -/
def Grid.column (temporal : List Bytes) (shared : List Str) (isNull : Str → Bool) (g : Grid) (k : Int) :
    List (Option Val) :=
  (List.range g.length).map (g.at temporal shared isNull k)

/-- C62.  Scanning the bytes of an XLSB file, building the columns and reading them, with any header, lookup, filters
and types, gives the table of the grid; empty rows count if `take_rows_non_empty` is set.  The last condition is that
there is a data row (see C57). -/
theorem C62_xlsb_bytes_to_table {A D : Type} (env : Env) (lib : Lib A D) (search : Str → Option (Str → Bool))
    (reMatch : Str → Str → Py Bool) (isNull : Str → Bool) (o : ConcatOpts) (keep : Bool) (sheet : SheetArg) (args : ReadArgs D) (f : XlsbFile)
    (temporal : List Bytes) (shared : List Str) (g : Grid) (h : f.Holds sheet isNull temporal shared g)
    (hres : ∀ k, Resolvable env o (g.inline k) ((g.counted keep isNull).column temporal shared isNull k))
    (hs : 0 < args.lookupSize) (hh : 0 ≤ args.header.height)
    (hlen : ∀ row : Nat, lookupRow env o ((g.counted keep isNull).column temporal shared isNull)
        ((g.counted keep isNull).seen isNull) args.lookupSize.toNat search args.lookup = .ok (some row) →
      0 < ((g.counted keep isNull).maxSpan isNull : Int) - row - args.header.height - args.skipAfter) :
    readXlsb env lib search reMatch isNull o { sheet := sheet, keepEmpty := keep } args f =
      sheetTable env lib search reMatch args o ((g.counted keep isNull).column temporal shared isNull)
        ((g.counted keep isNull).seen isNull) ((g.counted keep isNull).columns isNull)
        ((g.counted keep isNull).maxSpan isNull) := by
  obtain ⟨sheets, path, part, rs, hdrs, tail, e1, e2, e3, e4, e5, e6, _⟩ := h.path
  have hst := h.temporal_eq
  have hsh := h.strings_eq
  have hscan := scan_part e4 e5
  obtain ⟨row0, hrow0, c0, hc0, hb0⟩ := h.value
  let p := g.parts hdrs tail
  have hrec := g.parts_records hdrs tail
  have hok : p.Ok := h.parts_ok hdrs e6
  have hev := C37_rows_in_place temporal isNull [] keep p hok
  rw [show sheetItems (xlsbCell temporal isNull [] []) p.rows = _ from
    sheetItems_grid temporal isNull shared.length hdrs g 0 h.fits] at hev
  have hev2 : (iterXlsb temporal isNull (fun _ => []) { keepEmpty := keep } p.records {}).map evCells =
      .ok (cellsFrom temporal isNull 0 (g.counted keep isNull)) := by
    rw [hev, ← numbered_grid]
    rfl
  cases hit : iterXlsb temporal isNull (fun _ => []) { keepEmpty := keep } p.records {} with
  | error e => rw [hit] at hev2; cases hev2
  | ok evs =>
  rw [hit] at hev2
  have hcells : evCells evs = cellsFrom temporal isNull 0 (g.counted keep isNull) := by
    injection hev2
  have hxs : xlsbSheet temporal isNull (fun seen => if seen then [] else []) ⟨0, 0, keep, []⟩ part = .ok evs := by
    unfold xlsbSheet
    rw [hscan, ← hrec, show (fun seen : Bool => if seen = true then ([] : List Bytes) else []) = fun _ => [] from by
      funext seen; split <;> rfl]
    exact hit
  have hfits : ∀ row ∈ g.counted keep isNull, ∀ c ∈ row, c.Fits shared.length := by
    intro row hrow
    apply h.fits
    unfold Grid.counted at hrow
    split at hrow
    · exact hrow
    · exact (List.mem_filter.mp hrow).1
  have hne : cellsFrom temporal isNull 0 (g.counted keep isNull) ≠ [] := by
    have hrow : row0 ∈ g.counted keep isNull := by
      unfold Grid.counted
      split
      · exact hrow0
      · exact List.mem_filter.mpr ⟨hrow0, List.any_eq_true.mpr ⟨c0, hc0, by simp [hb0]⟩⟩
    obtain ⟨r, hr, hrg⟩ := List.getElem_of_mem hrow
    intro hnil
    have : c0.cell temporal (0 + r) ∈ cellsFrom temporal isNull 0 (g.counted keep isNull) :=
      mem_cellsFrom.mpr ⟨r, c0, hr, by simpa [List.getElem?_eq_getElem hr, hrg] using hc0, hb0, rfl⟩
    rw [hnil] at this
    simp at this
  have hvals : ∀ k i, cellAt (colValues env true (shared.map some)
      (cellsFrom temporal isNull 0 (g.counted keep isNull)) k) i =
      cellAt ((g.counted keep isNull).column temporal shared isNull k) i := by
    intro k i
    rw [grid_values env temporal shared isNull _ hfits]
    unfold cellAt Grid.column
    by_cases hi : i < (g.counted keep isNull).length
    · simp [hi]
    · have h1 : (g.counted keep isNull)[i]? = none := List.getElem?_eq_none (by omega)
      rw [List.getElem?_eq_none (by simp; omega)]
      simp [Grid.at, h1]
  unfold readXlsb
  simp only [e1, e2, checkRows, e3, openPart, hst, hsh]
  simp only [show ¬ ((0 : Int) < 0) by decide, if_false, Int.toNat_zero, hxs]
  rw [show evs.filterMap Ev.cell? = evCells evs from by
    unfold evCells
    rfl, hcells]
  have hlk : ∀ keys size s lk, lookupRow env o (colValues env true (shared.map some)
      (cellsFrom temporal isNull 0 (g.counted keep isNull))) keys size s lk =
      lookupRow env o ((g.counted keep isNull).column temporal shared isNull) keys size s lk := by
    intro keys size s lk
    have hw : ∀ k off len, window (colValues env true (shared.map some)
      (cellsFrom temporal isNull 0 (g.counted keep isNull)) k) off len =
      window ((g.counted keep isNull).column temporal shared isNull k) off len := by
      intro k off len; simp only [window, hvals]
    cases lk <;> simp only [lookupRow, hw]
  have := readCells_sheet env true (shared.map some) o lib search reMatch args
    (cellsFrom temporal isNull 0 (g.counted keep isNull)) hne (fun k => (resolvable_congr (hvals k) (hres k)).mono (g.inline_counted temporal isNull keep)) (grid_present env temporal shared isNull _ hfits) hs hh
    (by
      intro row hr
      rw [hlk, grid_seen] at hr
      rw [grid_maxSpan]
      exact hlen row hr)
  rw [grid_seen, grid_columns, grid_maxSpan] at this
  rw [← sheetTable_congr env lib search reMatch args o _ _ hvals]
  exact this

/-- C62.  With the default arguments: the column `k` of the table has at row `r` the value of the grid at `(r, k)`, and
null where there is none. -/
theorem C62_default {A D : Type} (env : Env) (lib : Lib A D) (hlib : lib.Lawful) (search : Str → Option (Str → Bool))
    (reMatch : Str → Str → Py Bool) (isNull : Str → Bool) (o : ConcatOpts) (keep : Bool) (sheet : SheetArg) (f : XlsbFile)
    (temporal : List Bytes) (shared : List Str) (g : Grid) (h : f.Holds sheet isNull temporal shared g)
    (hres : ∀ k, Resolvable env o (g.inline k) ((g.counted keep isNull).column temporal shared isNull k)) :
    readXlsb env lib search reMatch isNull o { sheet := sheet, keepEmpty := keep } {} f =
      .ok ⟨(List.range ((g.counted keep isNull).columns isNull).length).map fun i => "Unnamed. ".toList ++ pyStr i,
        ((g.counted keep isNull).columns isNull).map fun k => lib.ofFetched (.arr (fetched env o
          ((List.range ((g.counted keep isNull).maxSpan isNull)).map
            ((g.counted keep isNull).at temporal shared isNull k))))⟩ := by
  have hpos : 0 < ((g.counted keep isNull).maxSpan isNull : Int) := by
    obtain ⟨row0, hrow0, c0, hc0, hb0⟩ := h.value
    have hrow : row0 ∈ g.counted keep isNull := by
      unfold Grid.counted
      split
      · exact hrow0
      · exact List.mem_filter.mpr ⟨hrow0, List.any_eq_true.mpr ⟨c0, hc0, by simp [hb0]⟩⟩
    have hk : (c0.col : Int) ∈ columnsOf (cellsFrom temporal isNull 0 (g.counted keep isNull)) := by
      rw [grid_columns, Grid.columns, List.mem_insertionSort, List.mem_dedup, Grid.cols, List.mem_filterMap]
      exact ⟨c0, List.mem_flatten.mpr ⟨row0, hrow, hc0⟩, by simp [hb0]⟩
    have h1 := spanOf_pos hk
    have h2 := (foldr_max_spec (spanOf (cellsFrom temporal isNull 0 (g.counted keep isNull)))
      (columnsOf (cellsFrom temporal isNull 0 (g.counted keep isNull)))).1 _ hk
    rw [← grid_maxSpan temporal]
    unfold maxSpan
    omega
  rw [C62_xlsb_bytes_to_table env lib search reMatch isNull o keep sheet {} f temporal shared g h hres
    (show (0 : Int) < 30 by decide) (le_refl (0 : Int)) (by
      intro row hr
      injection hr with hr
      injection hr with hr
      subst hr
      simpa [HeaderArg.height] using hpos)]
  have hat : ∀ k, window ((g.counted keep isNull).column temporal shared isNull k) 0
      ((g.counted keep isNull).maxSpan isNull) =
      (List.range ((g.counted keep isNull).maxSpan isNull)).map ((g.counted keep isNull).at temporal shared isNull k) := by
    intro k
    unfold window
    apply List.map_congr_left
    intro i _
    rw [Nat.zero_add]
    unfold cellAt Grid.column
    by_cases hi : i < (g.counted keep isNull).length
    · simp [hi]
    · have h1 : (g.counted keep isNull)[i]? = none := List.getElem?_eq_none (by omega)
      rw [List.getElem?_eq_none (by simp; omega)]
      simp [Grid.at, h1]
  have htab := fun m => tableOf_ok (D := D) hlib env o ((g.counted keep isNull).column temporal shared isNull)
    ((g.counted keep isNull).columns isNull)
    ((List.range ((g.counted keep isNull).columns isNull).length).map fun i => unnamedDot ++ pyStr i)
    (by simp) .none 0 ((g.counted keep isNull).maxSpan isNull) m rfl
  unfold sheetTable
  simp only [lookupRow, namesFor, if_true, filterKeys, HeaderArg.height, maskFor, List.isEmpty_nil, Nat.cast_zero,
    add_zero, sub_zero, Int.toNat_zero, Int.toNat_natCast]
  rw [(htab none).1]
  simp only [pickRows, hat]
  rfl

/-! ### A whole file -/

/-- Cell formats 0 (plain) and 1 (date); shared strings `x`, `yz`. -/
def exGrid : Grid :=
  [[⟨0, [0, 0, 0], .shared 1, 7, 0, []⟩, ⟨2, [0, 0, 0], .text ['q'], 8, 0, [9, 9]⟩],
    [],
    [⟨0, [0, 0, 0], .text ['-'], 6, 0, []⟩],
    [⟨0, [0, 0, 0], .bool true, 4, 0, []⟩, ⟨1, [1, 0, 0], .rk 181170, 2, 0, []⟩, ⟨2, [0, 0, 0], .shared 0, 7, 1, []⟩]]

def exHdrs (r : Nat) : Bytes := le32 r ++ [0, 0]

def exPart : List Record := ⟨129, []⟩ :: ⟨148, [1, 2]⟩ :: ⟨145, []⟩ :: (exGrid.records exHdrs ++ [⟨402, []⟩, ⟨130, []⟩])

/-- The bytes, or none. -/
def bytesOf (rs : List Record) : Bytes := ((writeAll rs []).toOption).getD []

def exFile : XlsbFile where
  rels := [⟨['r', '1'], [], ['s', '1']⟩]
  workbook := bytesOf [(⟨0, 1, ['r', '1'], ['A']⟩ : SheetEntry).record]
  shared := some <| bytesOf [⟨159, []⟩, sstItem 0 ['x'] [], sstItem 0 ['y', 'z'] [], ⟨160, []⟩]
  styles := some <| bytesOf [(⟨0, 0, []⟩ : Xf).record, (⟨0, 14, []⟩ : Xf).record]
  parts := fun n => if n = "xl/s1".toList then some (bytesOf exPart) else none

theorem exFile_holds : exFile.Holds (.index 0) (fun s => s == ['-']) [[1, 0, 0]] [['x'], ['y', 'z']] exGrid := by
  refine ⟨⟨[(['A'], "xl/s1".toList)], "xl/s1".toList, bytesOf exPart, exPart, exHdrs, [⟨402, []⟩], ?_⟩, ?_,
    ⟨_, [(0, ['x'], []), (0, ['y', 'z'], [])], rfl, ?_⟩, ?_, ?_⟩
  · refine ⟨by decide +kernel, by decide +kernel, by decide +kernel, by decide +kernel, by decide +kernel,
      .inr ⟨_, _, rfl, rfl⟩, by decide +kernel⟩
  · exact ⟨_, rfl, by decide +kernel⟩
  · exact ⟨by decide +kernel, by decide, by decide +kernel, rfl⟩
  · decide +kernel
  · decide +kernel

example : (readXlsb demoEnv exLib (fun _ => none) (fun _ _ => .ok false) (fun s => s == ['-']) exConcat
      { keepEmpty := true } {} exFile).map (·.arrays) =
    .ok [.arr ⟨.utf8, [some (.str ['y', 'z']), none, none, some (.str ['1'])]⟩,
      .arr ⟨.ts, [none, none, none, some (.ts 1704067200000)]⟩,
      .arr ⟨.utf8, [some (.str ['q']), none, none, some (.str ['x'])]⟩] := by
  decide +kernel

end Rxls
