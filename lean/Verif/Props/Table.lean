import Verif.Lemmas.ReadInv
import Verif.Props.Read

/-! # Properties C57 to C61: the table returned by `read` -/

namespace Rxls

/-! ## C57 -/

/-- C57.  A returned table has one name per array, and arrays of one length. -/
theorem C57_rectangular {A D : Type} (env : Env) (lib : Lib A D) (search : Str → Option (Str → Bool))
    (reMatch : Str → Str → Py Bool) (args : ReadArgs D) (fresh : Series) (cells : List Cell) (t : Table A)
    (h : readCells env lib search reMatch args fresh cells = .ok t) :
    t.names.length = t.arrays.length ∧ ∀ a ∈ t.arrays, ∀ b ∈ t.arrays, lib.len a = lib.len b := by
  unfold readCells at h
  split at h
  · simp at h
  · obtain ⟨_, _, _, _, names, arrays, _, _, hm⟩ := readColumns_inv h
    obtain ⟨rfl, h1, h2⟩ := makeTable_inv hm
    exact ⟨h1, h2⟩

/-- C57.  The number of rows is the number of data rows, or of the rows kept by the filter. -/
theorem C57_row_count {A D : Type} (env : Env) (b : Bool) (shared : List (Option Str)) (o : ConcatOpts)
    (lib : Lib A D) (hlib : lib.Lawful)
    (search : Str → Option (Str → Bool))
    (reMatch : Str → Str → Py Bool) (args : ReadArgs D) (cells : List Cell) (hne : cells ≠ [])
    (hr : ∀ k, Resolvable env o (inlineColumn cells k) (colValues env b shared cells k)) (hv : PresentCells env b shared cells) (hs : 0 < args.lookupSize) (hh : 0 ≤ args.header.height)
    (row : Nat)
    (hrow : lookupRow env o (colValues env b shared cells) (firstSeen cells) args.lookupSize.toNat search
      args.lookup = .ok (some row))
    (hlen : 0 < maxSpan cells - row - args.header.height - args.skipAfter) (t : Table A)
    (h : readCells env lib search reMatch args (freshSeries shared b o) cells = .ok t) :
    ∃ fs m, filterKeys reMatch t.names (columnsOf cells) args.filters = .ok fs ∧
      maskFor env o (colValues env b shared cells) fs args.strategy
        (args.header.height + row + args.skipAfter).toNat
        (maxSpan cells - row - args.header.height - args.skipAfter).toNat = .ok m ∧
      ∀ a ∈ t.arrays, lib.len a = match m with
        | none => (maxSpan cells - row - args.header.height - args.skipAfter).toNat
        | some m => trueCount m := by
  rw [readCells_sheet env b shared o lib search reMatch args cells hne hr hv hs hh (by
    intro r hr
    rw [hrow] at hr
    injection hr with hr
    injection hr with hr
    subst hr
    exact hlen)] at h
  obtain ⟨r, names, fs, m, arrays, h1, h2, h3, h4, h5, rfl⟩ := sheetTable_inv h
  rw [hrow] at h1
  injection h1 with h1
  injection h1 with h1
  subst h1
  obtain ⟨_, h6⟩ := tableOf_ok hlib env o _ _ names (namesFor_length h2) args.dtypes _ _ m h5
  exact ⟨fs, m, h3, h4, fun a ha => by rw [h6 a ha]; cases m <;> rfl⟩

/-- C57.  Once the rows are chosen and the casts succeed there is a table: the lengths never disagree. -/
theorem C57_always_fits {A D : Type} (env : Env) (lib : Lib A D) (hlib : lib.Lawful) (p : ConcatOpts)
    (values : Int → List (Option Val)) (keys : List Int) (names : List Str) (hl : names.length = keys.length)
    (dtypes : DtypesArg D) (off len : Nat) (m : Option (List Bool)) (arrays : List A)
    (h : applyDtypes lib names
      (keys.map fun k => lib.ofFetched (.arr (fetched env p (pickRows (values k) off len m)))) dtypes = .ok arrays) :
    tableOf env lib p values keys names dtypes off len m = .ok ⟨names, arrays⟩ :=
  (tableOf_ok hlib env p values keys names hl dtypes off len m h).1

/-- Finding: a sheet with a header and no data row is refused, with ValueError, instead of giving an empty table. -/
theorem C57_header_only :
    exRead { header := .rows 1 } [tx 0 0 ['a'], tx 0 1 ['b']] = .error .valueError := by
  decide +kernel

example : exRead { header := .rows 1 } [tx 0 0 ['a'], tx 0 3 ['b'], nm 1 0 1, nm 3 3 2] =
    .ok ⟨[['a'], ['b']], [.arr ⟨.i8, [some (.i8 1), none, none]⟩, .arr ⟨.i8, [none, none, some (.i8 2)]⟩]⟩ := by
  decide +kernel

/-! ## C58 -/

/-- Finding, C58 fails: the number of rows is the greatest span of a column, not the last row of the sheet.  With a title
in A1 and a table from B2 to B4 the last row is not returned. -/
theorem C58_last_row_lost :
    exRead {} [tx 0 0 ['t'], nm 1 1 1, nm 2 1 2, nm 3 1 3] =
      .ok ⟨[unnamedDot ++ ['0'], unnamedDot ++ ['1']],
        [.arr ⟨.utf8, [some (.str ['t']), none, none]⟩, .arr ⟨.i8, [none, some (.i8 1), some (.i8 2)]⟩]⟩ := by
  decide +kernel

/-- Finding: with `lookup_head`, a table that begins lower than it is high is refused with ValueError; one of five rows
under a title and an empty row loses its last two rows. -/
theorem C58_lookup_loses :
    exRead { header := .rows 1, lookup := .column 1 } [tx 0 0 ['t'], tx 5 1 ['h'], nm 6 1 1] = .error .valueError ∧
    exRead { header := .rows 1, lookup := .column 1 }
      [tx 0 0 ['t'], tx 2 1 ['h'], nm 3 1 1, nm 4 1 2, nm 5 1 3, nm 6 1 4] =
      .ok ⟨[unnamed, ['h']], [.arr ⟨.utf8, [none, none]⟩, .arr ⟨.i8, [some (.i8 1), some (.i8 2)]⟩]⟩ := by
  decide +kernel

/-- C58, partial: a cell in a data row above the greatest span is in the table, at its row and in its column; a negative
number of rows to skip moves that row down.  With conflict resolution the cell may have become a moment or a number.
Missing: cells at or below that row, which are lost. -/
theorem C58_within_span_partial {A D : Type} (env : Env) (b : Bool) (shared : List (Option Str)) (o : ConcatOpts)
    (lib : Lib A D) (search : Str → Option (Str → Bool))
    (reMatch : Str → Str → Py Bool) (args : ReadArgs D) (cells : List Cell) (hne : cells ≠ [])
    (hr : ∀ k, Resolvable env o (inlineColumn cells k) (colValues env b shared cells k)) (hv : PresentCells env b shared cells) (hs : 0 < args.lookupSize) (hh : 0 ≤ args.header.height)
    (hdt : args.dtypes = .none) (hfl : args.filters = .none)
    (hinc : ∀ k, (colCells cells k).Pairwise fun x y => x.row < y.row) (row : Nat)
    (hrow : lookupRow env o (colValues env b shared cells) (firstSeen cells) args.lookupSize.toNat search
      args.lookup = .ok (some row)) (t : Table A)
    (h : readCells env lib search reMatch args (freshSeries shared b o) cells = .ok t)
    (c : Cell) (hc : c ∈ cells) (h1 : args.header.height + row + args.skipAfter ≤ c.row)
    (h2 : (c.row : Int) < maxSpan cells + (-(args.header.height + row + args.skipAfter)).toNat) :
    ∃ (j : Nat) (v w : Val) (arr : Arr), (columnsOf cells)[j]? = some c.col ∧ t.arrays[j]? = some (lib.ofFetched (.arr arr)) ∧
      rawValue env b shared c.xdt c.val = some (some v) ∧
      (w = v ∨ o.confNum = true ∧ w = asNumber env v ∨ o.confDt = true ∧
        w = asMoment env o (window (colValues env b shared cells c.col) (args.header.height + row + args.skipAfter).toNat
          (maxSpan cells - row - args.header.height - args.skipAfter).toNat) v) ∧
      arr.vals[c.row - (args.header.height + row + args.skipAfter).toNat]? = some (some (rendered env arr.dtype w)) := by
  rw [readCells_sheet env b shared o lib search reMatch args cells hne hr hv hs hh (by
    intro r hr
    rw [hrow] at hr
    injection hr with hr
    injection hr with hr
    subst hr
    omega)] at h
  obtain ⟨r, names, fs, m, arrays, g1, g2, g3, g4, g5, rfl⟩ := sheetTable_inv h
  rw [hrow] at g1
  injection g1 with g1
  injection g1 with g1
  subst g1
  rw [hfl, filterKeys] at g3
  injection g3 with g3
  subst g3
  rw [maskFor, if_pos (by rfl)] at g4
  injection g4 with g4
  subst g4
  rw [hdt, applyDtypes] at g5
  injection g5 with g5
  subst g5
  have hk : c.col ∈ columnsOf cells := by
    rw [columnsOf, List.mem_insertionSort, List.mem_dedup]
    exact List.mem_map_of_mem hc
  obtain ⟨j, hj, hjk⟩ := List.getElem_of_mem hk
  obtain ⟨v, hval⟩ := hv c hc
  have hcc : c ∈ colCells cells c.col := List.mem_filter.mpr ⟨hc, by simp⟩
  have hraw : rawAt (colCells cells c.col) c.row = some (c.xdt, c.val) := by
    unfold rawAt
    have : ((colCells cells c.col).find? fun d => decide (c.row ≤ d.row)) = some c := by
      rw [List.find?_eq_some_iff_append]
      refine ⟨by simp, ?_⟩
      obtain ⟨as, bs, e⟩ := List.append_of_mem hcc
      refine ⟨as, bs, e, fun a ha => ?_⟩
      have := hinc c.col
      rw [e, List.pairwise_append] at this
      have := this.2.2 a ha c (by simp)
      simp; omega
    rw [this]
    simp
  have hrl : c.row < height (colCells cells c.col) := height_ge hcc
  have hcell : cellAt (colValues env b shared cells c.col) c.row = some v := by
    unfold cellAt colValues
    rw [List.getElem?_map]
    have : (rawColumn (colCells cells c.col))[c.row]? = some (some (c.xdt, c.val)) := by
      simp [rawColumn, hrl, hraw]
    rw [this]
    simp [rowValue, hval]
  have hwin : (window (colValues env b shared cells c.col) (args.header.height + row + args.skipAfter).toNat
      (maxSpan cells - row - args.header.height - args.skipAfter).toNat)[c.row -
        (args.header.height + row + args.skipAfter).toNat]? = some (some v) := by
    have hlt : c.row - (args.header.height + row + args.skipAfter).toNat <
      (maxSpan cells - row - args.header.height - args.skipAfter).toNat := by omega
    unfold window
    rw [List.getElem?_map, List.getElem?_range hlt]
    simp only [Option.map_some]
    rw [show (args.header.height + row + args.skipAfter).toNat + (c.row -
      (args.header.height + row + args.skipAfter).toNat) = c.row by omega, hcell]
  have hres : ∀ (l : List (Option Val)) (i : Nat), l[i]? = some (some v) → ∃ w, (w = v ∨
      o.confNum = true ∧ w = asNumber env v ∨ o.confDt = true ∧ w = asMoment env o l v) ∧ (resolved env o l)[i]? = some (some w) := by
    intro l i hi
    unfold resolved
    split
    · cases hd : o.confDt with
      | true => exact ⟨_, .inr (.inr ⟨rfl, rfl⟩), by simp [hi]⟩
      | false => exact ⟨v, .inl rfl, by simpa using hi⟩
    · split
      · rename_i h
        simp only [Bool.and_eq_true] at h
        exact ⟨_, .inr (.inl ⟨h.1.1, rfl⟩), by simp [hi]⟩
      · exact ⟨v, .inl rfl, hi⟩
  obtain ⟨w, hw, hw2⟩ := hres _ _ hwin
  refine ⟨j, v, w, fetched env o (pickRows (colValues env b shared cells c.col)
    (args.header.height + row + args.skipAfter).toNat
    (maxSpan cells - row - args.header.height - args.skipAfter).toNat none), ?_, ?_, hval, hw, ?_⟩
  · rw [List.getElem?_eq_getElem hj, hjk]
  · rw [List.getElem?_map, List.getElem?_eq_getElem hj, hjk]; rfl
  · simp only [fetched, materialise, pickRows, List.getElem?_map, hw2, Option.map_some]

/-- C58, the other half: a cell at or below that row has no place in the table, every column of which
ends before it.  With `C58_within_span_partial`: a cell of a data row is in the table iff it is above that row. -/
theorem C58_beyond_span_lost {A D : Type} (env : Env) (b : Bool) (shared : List (Option Str)) (o : ConcatOpts)
    (lib : Lib A D) (hlib : lib.Lawful) (search : Str → Option (Str → Bool))
    (reMatch : Str → Str → Py Bool) (args : ReadArgs D) (cells : List Cell) (hne : cells ≠ [])
    (hr : ∀ k, Resolvable env o (inlineColumn cells k) (colValues env b shared cells k))
    (hv : PresentCells env b shared cells) (hs : 0 < args.lookupSize) (hh : 0 ≤ args.header.height)
    (hfl : args.filters = .none) (row : Nat)
    (hrow : lookupRow env o (colValues env b shared cells) (firstSeen cells) args.lookupSize.toNat search
      args.lookup = .ok (some row))
    (hlen : 0 < maxSpan cells - row - args.header.height - args.skipAfter) (t : Table A)
    (h : readCells env lib search reMatch args (freshSeries shared b o) cells = .ok t)
    (c : Cell) (h2 : maxSpan cells + (-(args.header.height + row + args.skipAfter)).toNat ≤ (c.row : Int)) :
    ∀ a ∈ t.arrays, lib.len a ≤ c.row - (args.header.height + row + args.skipAfter).toNat := by
  obtain ⟨fs, m, h3, h4, h5⟩ := C57_row_count env b shared o lib hlib search reMatch args cells hne hr hv hs hh row
    hrow hlen t h
  rw [hfl, filterKeys] at h3
  injection h3 with h3
  subst h3
  rw [maskFor] at h4
  injection h4 with h4
  subst h4
  intro a ha
  rw [h5 a ha]
  simp only
  omega

/-- C58, partial: no cell is lost if some column begins in the first row and reaches the last one. -/
theorem C58_full_column_partial (cells : List Cell) (k : Int) (d : Cell) (ds : List Cell)
    (hk : colCells cells k = d :: ds) (h0 : d.row = 0) (hall : ∀ c ∈ cells, c.row < height (colCells cells k)) :
    ∀ c ∈ cells, (c.row : Int) < maxSpan cells := by
  intro c hc
  have hsp : spanOf cells k = height (colCells cells k) := by
    unfold spanOf
    rw [hk]
    simp [h0]
  have hkm : k ∈ columnsOf cells := by
    rw [columnsOf, List.mem_insertionSort, List.mem_dedup, List.mem_map]
    have : d ∈ colCells cells k := by rw [hk]; simp
    obtain ⟨hm, he⟩ := List.mem_filter.mp this
    exact ⟨d, hm, by simpa using he⟩
  have := (foldr_max_spec (spanOf cells) (columnsOf cells)).1 k hkm
  have h3 := hall c hc
  unfold maxSpan
  omega

/-- A cell at or below the greatest span is in no row of the table: there are not that many rows. -/
theorem C58_rows_returned {A D : Type} (env : Env) (b : Bool) (shared : List (Option Str)) (o : ConcatOpts)
    (lib : Lib A D) (hlib : lib.Lawful)
    (search : Str → Option (Str → Bool)) (reMatch : Str → Str → Py Bool) (cells : List Cell) (hne : cells ≠ [])
    (hr : ∀ k, Resolvable env o (inlineColumn cells k) (colValues env b shared cells k)) (hv : PresentCells env b shared cells) (t : Table A)
    (h : readCells env lib search reMatch {} (freshSeries shared b o) cells = .ok t) :
    ∀ a ∈ t.arrays, (lib.len a : Int) = maxSpan cells := by
  have hpos : 0 < maxSpan cells := by
    obtain ⟨c, cs, rfl⟩ := List.exists_cons_of_ne_nil hne
    have hkm : c.col ∈ columnsOf (c :: cs) := by
      rw [columnsOf, List.mem_insertionSort, List.mem_dedup]
      simp
    have h1 := spanOf_pos hkm
    have h2 := (foldr_max_spec (spanOf (c :: cs)) (columnsOf (c :: cs))).1 _ hkm
    unfold maxSpan
    omega
  obtain ⟨fs, m, h1, h2, h3⟩ := C57_row_count env b shared o lib hlib search reMatch {} cells hne hr hv
    (show (0 : Int) < 30 by decide) (le_refl (0 : Int)) 0 rfl (by simpa [HeaderArg.height] using hpos) t h
  rw [filterKeys] at h1
  injection h1 with h1
  subst h1
  rw [maskFor, if_pos (by rfl)] at h2
  injection h2 with h2
  subst h2
  intro a ha
  rw [h3 a ha]
  simp only [HeaderArg.height]
  omega

example : exRead {} [nm 0 0 9, nm 1 1 1, nm 2 1 2, nm 3 0 3, nm 3 1 4] =
    .ok ⟨[unnamedDot ++ ['0'], unnamedDot ++ ['1']], [.arr ⟨.i8, [some (.i8 9), none, none, some (.i8 3)]⟩,
      .arr ⟨.i8, [none, some (.i8 1), some (.i8 2), some (.i8 4)]⟩]⟩ := by
  decide +kernel

/-! ## C59 -/

/-- C59.  The choice of the reader. -/
theorem C59_kind (content : List Str) :
    (fileKind content = .ok .xlsx ↔ workbookXml ∈ content) ∧
    (fileKind content = .ok .xlsb ↔ workbookXml ∉ content ∧ workbookBin ∈ content) ∧
    (fileKind content = .error .assertionError ↔ workbookXml ∉ content ∧ workbookBin ∉ content) := by
  unfold fileKind
  by_cases h1 : workbookXml ∈ content <;> by_cases h2 : workbookBin ∈ content <;> simp [h1, h2]

/-- C59.  Nothing else in the package matters. -/
theorem C59_nothing_else (c d : List Str) (hx : workbookXml ∈ c ↔ workbookXml ∈ d)
    (hb : workbookBin ∈ c ↔ workbookBin ∈ d) : fileKind c = fileKind d := by
  unfold fileKind
  simp only [List.contains_iff_mem, hx, hb]

example : fileKind [['a'], workbookBin] = .ok .xlsb ∧ fileKind [workbookBin, ['a'], workbookXml] = .ok .xlsx ∧
    fileKind [['a'], ['x', 'l']] = .error .assertionError ∧
    workbookXml = "xl/workbook.xml".toList ∧ workbookBin = "xl/workbook.bin".toList := by
  decide +kernel

/-! ## C60 -/

/-- C60.  Explicit names are used as given, one per column. -/
theorem C60_explicit {A D : Type} (env : Env) (lib : Lib A D) (search : Str → Option (Str → Bool))
    (reMatch : Str → Str → Py Bool) (args : ReadArgs D) (cols : Cols) (l : List Str) (hl : args.header = .names l)
    (t : Table A) (h : readColumns env lib search reMatch args cols = .ok t) :
    t.names = l ∧ l.length = cols.length := by
  obtain ⟨cols1, row, cols2, hh, names, arrays, h1, h2, h3⟩ := readColumns_inv h
  obtain ⟨rfl, _, _⟩ := makeTable_inv h3
  rw [hl, headerOf] at h2
  have hk := findHeader_keys h1
  split at h2
  · simp at h2
  · rename_i hn
    injection h2 with h2
    injection h2 with _ h2
    injection h2 with _ h2
    exact ⟨h2.symm, by simp only [ne_eq, not_not] at hn; omega⟩

/-- C60.  The columns are the ones with a cell. -/
theorem C60_columns (env : Env) (b : Bool) (shared : List (Option Str)) (o : ConcatOpts) (cells : List Cell)
    (hv : PresentCells env b shared cells) :
    ∃ cols, collect env (freshSeries shared b o) [] cells = .ok cols ∧
      (cols.map (·.1)).Nodup ∧ ∀ k, k ∈ cols.map (·.1) ↔ ∃ c ∈ cells, c.col = k := by
  obtain ⟨cols, e, hc⟩ := collect_ok env b shared o cells hv.valid
  exact ⟨cols, e, hc.nodup, hc.keys⟩

/-- C60.  Any other number of names is refused with ValueError. -/
theorem C60_refused {A D : Type} (env : Env) (lib : Lib A D) (search : Str → Option (Str → Bool))
    (reMatch : Str → Str → Py Bool) (args : ReadArgs D) (cols : Cols) (hne : cols ≠ []) (l : List Str)
    (hl : args.header = .names l) (hn : l.length ≠ cols.length) (cols1 : Cols) (row : Int)
    (hf : findHeader env search cols args.lookupSize args.lookup = .ok (cols1, row)) :
    readColumns env lib search reMatch args cols = .error .valueError := by
  obtain ⟨q, qs, rfl⟩ := List.exists_cons_of_ne_nil hne
  have hk := findHeader_keys hf
  unfold readColumns
  simp only [maxLen, hf]
  split
  · rfl
  · have : headerOf env cols1 row args.header = .error .valueError := by
      rw [hl, headerOf, if_pos (by omega)]
    rw [this]

/-- C60.  Without header the columns are named by position. -/
theorem C60_positional {A D : Type} (env : Env) (lib : Lib A D) (search : Str → Option (Str → Bool))
    (reMatch : Str → Str → Py Bool) (args : ReadArgs D) (cols : Cols) (hl : args.header = .rows 0)
    (t : Table A) (h : readColumns env lib search reMatch args cols = .ok t) :
    t.names.length = cols.length ∧ ∀ i < cols.length, t.names[i]? = some ("Unnamed. ".toList ++ pyStr i) := by
  obtain ⟨cols1, row, cols2, hh, names, arrays, h1, h2, h3⟩ := readColumns_inv h
  obtain ⟨rfl, _, _⟩ := makeTable_inv h3
  rw [hl, headerOf, if_neg (by simp)] at h2
  have hk := findHeader_keys h1
  injection h2 with h2
  injection h2 with _ h2
  injection h2 with _ h2
  subst h2
  refine ⟨by simp [hk], fun i hi => ?_⟩
  rw [List.getElem?_map, List.getElem?_range (by omega)]
  rfl

example : exRead { header := .names [['p'], ['q']] } [nm 0 0 3, nm 0 7 4] =
      .ok ⟨[['p'], ['q']], [.arr ⟨.i8, [some (.i8 3)]⟩, .arr ⟨.i8, [some (.i8 4)]⟩]⟩ ∧
    exRead { header := .names [['p']] } [nm 0 0 3, nm 0 7 4] = .error .valueError ∧
    exRead { header := .names [] } [nm 0 0 3, nm 0 7 4] = .error .valueError := by
  decide +kernel

/-! ## C61 -/

/-- C61.  Every array of the result is the one of its column, cast to the type asked for that column.  `wantedType` is
the one type, the type listed for the name, or the type at the position; `retyped` keeps the array if no type is asked
for, or if it has that type already. -/
theorem C61_applied {A D : Type} (lib : Lib A D) (names : List Str) (arrays r : List A)
    (hl : arrays.length = names.length) (arg : DtypesArg D) (h : applyDtypes lib names arrays arg = .ok r) :
    r.length = arrays.length ∧
      ∀ j, (hj : j < arrays.length) → retyped lib arrays[j] (wantedType names j arg) = r[j]? := by
  have hg := applyDtypes_get hl h
  have hlen : r.length = arrays.length := by simpa using (congrArg List.length hg).symm
  refine ⟨hlen, fun j hj => ?_⟩
  have := congrArg (fun l => l[j]?) hg
  simp only [List.getElem?_map, List.getElem?_zipIdx, List.getElem?_eq_getElem hj, Option.map_some] at this
  rw [List.getElem?_eq_getElem (show j < r.length by omega)] at this ⊢
  simpa using this

/-- C61.  If all casts succeed there is a result. -/
theorem C61_succeeds {A D : Type} (lib : Lib A D) (names : List Str) (arrays : List A)
    (hl : arrays.length = names.length) (arg : DtypesArg D) (hs : ∀ l, arg = .sequence l → l.length = names.length)
    (hc : ∀ j, (hj : j < arrays.length) → (retyped lib arrays[j] (wantedType names j arg)).isSome) :
    ∃ r, applyDtypes lib names arrays arg = .ok r := by
  rw [applyDtypes_pairs lib names arrays hl arg hs]
  obtain ⟨r, e, _⟩ := allSome_spec (arrays.zipIdx.map fun p => retyped lib p.1 (wantedType names p.2 arg)) (by
    intro x hx
    obtain ⟨p, hp, rfl⟩ := List.mem_map.mp hx
    obtain ⟨h1, h2⟩ := List.mem_zipIdx' hp
    simp only [h2]
    exact hc _ h1)
  exact ⟨r, by rw [e]⟩

/-- C61.  A cast that fails raises ValueError. -/
theorem C61_failing_cast {A D : Type} (lib : Lib A D) (names : List Str) (arrays : List A)
    (hl : arrays.length = names.length) (arg : DtypesArg D) (hs : ∀ l, arg = .sequence l → l.length = names.length)
    (j : Nat) (hj : j < arrays.length) (hc : retyped lib arrays[j] (wantedType names j arg) = none) :
    applyDtypes lib names arrays arg = .error .valueError := by
  rw [applyDtypes_pairs lib names arrays hl arg hs, allSome_none]
  refine List.mem_map.mpr ⟨(arrays[j], j), ?_, hc⟩
  rw [List.mem_zipIdx_iff_getElem?]
  simp [List.getElem?_eq_getElem hj]

/-- C61.  A sequence of another length raises ValueError. -/
theorem C61_length {A D : Type} (lib : Lib A D) (names : List Str) (arrays : List A) (l : List D)
    (h : l.length ≠ names.length) : applyDtypes lib names arrays (.sequence l) = .error .valueError := by
  rw [applyDtypes, if_pos h]

/-- Arrays and types with a parameter, such as the unit of a timestamp; every cast succeeds. -/
def exUnits : Lib (Nat × Nat) (Nat × Nat) where
  ofFetched := fun _ => (18, 0)
  arrId := Prod.fst
  typeId := Prod.fst
  cast := fun _ d => some d
  len := fun _ => 0

/-- Finding: types are compared by `id`, which leaves out parameters.  Asking for timestamps in milliseconds (18, 3)
where there are timestamps in seconds (18, 0) does nothing, although the cast would succeed. -/
theorem C61_parameters_ignored :
    applyDtypes exUnits [['a']] [(18, 0)] (.single (18, 3)) = .ok [(18, 0)] ∧
      exUnits.cast (18, 0) (18, 3) = some (18, 3) := by
  decide +kernel

example : (exRead { dtypes := .single .utf8 } [nm 0 0 3, tx 0 7 ['x'], nm 1 0 4]).map (·.arrays) =
      .ok [.arr ⟨.utf8, [some (.str ['3']), some (.str ['4'])]⟩, .arr ⟨.utf8, [some (.str ['x']), none]⟩] ∧
    (exRead { dtypes := .mapping [(unnamedDot ++ ['1'], .utf8)] } [nm 0 0 3, nm 0 7 3, nm 1 0 4]).map (·.arrays) =
      .ok [.arr ⟨.i8, [some (.i8 3), some (.i8 4)]⟩, .arr ⟨.utf8, [some (.str ['3']), none]⟩] ∧
    exRead { dtypes := .sequence [.i8, .ts] } [nm 0 0 3, nm 0 7 3] = .error .valueError ∧
    exRead { dtypes := .sequence [.i8] } [nm 0 0 3, nm 0 7 3] = .error .valueError := by
  decide +kernel

end Rxls
