import Verif.Props.Runs
import Verif.Lemmas.HistoryGrid

/-! # Properties C29, C48, C53, C55, C57, C58 and C68 with cells without a text

A cell that refers to a shared string stored as `None` (an error text, a null value, in XLSX also an empty entry) has no
text.  `ValidCells` allows such cells, `PresentCells` does not. -/

namespace Rxls

/-- C68.  The result of `read` for every setting of conflict resolution and every sheet, missing texts and exceptions
included.  `read` raises `ArrowNotImplementedError` exactly if one of the readings of the columns (of the lookup, the
header, the filters, the table, in this order) meets a moment and a run of shared strings that no reading before has
taken whole; if not, it is the table of the columns resolved run by run, or `ValueError` without data rows.  (Without
data rows a column must end at the header, which it does if it starts in row 0.) -/
theorem C68_history_exact {A D : Type} (env : Env) (b : Bool) (shared : List (Option Str)) (o : ConcatOpts)
    (lib : Lib A D) (search : Str → Option (Str → Bool)) (reMatch : Str → Str → Py Bool) (args : ReadArgs D)
    (cells : List Cell) (hne : cells ≠ []) (hv : ValidCells env b shared cells) (ha : args.Sensible)
    (hlen : DataOrEnd env search reMatch args (heldView env o b shared cells) (firstSeen cells) (columnsOf cells)
      (maxSpan cells) fun k off => height (colCells cells k) ≤ off) :
    readCells env lib search reMatch args (freshSeries shared b o) cells =
      if clashIn o (cellCols env b shared cells) [] (sheetReadings env search reMatch args (heldView env o b shared cells)
          (firstSeen cells) (columnsOf cells) (maxSpan cells)) = true then .error .arrowNotImplemented
      else sheetResult env lib search reMatch args (heldView env o b shared cells) (firstSeen cells) (columnsOf cells)
        (maxSpan cells) :=
  readCells_history env b shared o lib search reMatch args cells hne hv ha.lookup ha.header hlen

/-- C68.  The same with a data row. -/
theorem C68_history {A D : Type} (env : Env) (b : Bool) (shared : List (Option Str)) (o : ConcatOpts)
    (lib : Lib A D) (search : Str → Option (Str → Bool)) (reMatch : Str → Str → Py Bool) (args : ReadArgs D)
    (cells : List Cell) (hne : cells ≠ []) (hv : ValidCells env b shared cells) (ha : args.Sensible)
    (hlen : ∀ row : Nat, lookupRowV env (heldView env o b shared cells) (firstSeen cells)
      args.lookupSize.toNat search args.lookup = .ok (some row) →
      0 < maxSpan cells - row - args.header.height - args.skipAfter) :
    readCells env lib search reMatch args (freshSeries shared b o) cells =
      if clashIn o (cellCols env b shared cells) [] (sheetReadings env search reMatch args (heldView env o b shared cells)
          (firstSeen cells) (columnsOf cells) (maxSpan cells)) = true then .error .arrowNotImplemented
      else sheetTableV env lib search reMatch args (heldView env o b shared cells) (firstSeen cells) (columnsOf cells)
        (maxSpan cells) := by
  rw [C68_history_exact env b shared o lib search reMatch args cells hne hv ha fun row hr => .inl (hlen row hr),
    sheetResult_data hlen]

/-- C68.  The result of `read` for every setting of conflict resolution, missing texts included.  If no column has both
moments and shared strings (or temporal resolution is off), `read` is the table of the columns resolved run by run. -/
theorem C68_held {A D : Type} (env : Env) (b : Bool) (shared : List (Option Str)) (o : ConcatOpts)
    (lib : Lib A D) (search : Str → Option (Str → Bool)) (reMatch : Str → Str → Py Bool) (args : ReadArgs D)
    (cells : List Cell) (hne : cells ≠ [])
    (hr : ∀ k, HeldDatable o (inlineColumn cells k) (heldRows env b shared (rawColumn (colCells cells k))))
    (hv : ValidCells env b shared cells) (ha : args.Sensible)
    (hlen : ∀ row : Nat, lookupRowV env (heldView env o b shared cells) (firstSeen cells)
      args.lookupSize.toNat search args.lookup = .ok (some row) →
      0 < maxSpan cells - row - args.header.height - args.skipAfter) :
    readCells env lib search reMatch args (freshSeries shared b o) cells =
      sheetTableV env lib search reMatch args (heldView env o b shared cells) (firstSeen cells) (columnsOf cells)
        (maxSpan cells) :=
  readCells_held env b shared o lib search reMatch args cells hne hr hv ha.lookup ha.header hlen

/-- C68.  With the default call: the rows of each column, with the numbers of their runs, resolved. -/
theorem C68_held_default {A D : Type} (env : Env) (b : Bool) (shared : List (Option Str)) (o : ConcatOpts)
    (lib : Lib A D) (hlib : lib.Lawful) (search : Str → Option (Str → Bool)) (reMatch : Str → Str → Py Bool)
    (cells : List Cell) (hne : cells ≠ [])
    (hr : ∀ k, HeldDatable o (inlineColumn cells k) (heldRows env b shared (rawColumn (colCells cells k))))
    (hv : ValidCells env b shared cells) :
    readCells env lib search reMatch {} (freshSeries shared b o) cells =
      .ok ⟨(List.range (columnsOf cells).length).map fun i => "Unnamed. ".toList ++ pyStr i,
        (columnsOf cells).map fun k => lib.ofFetched (.arr (fetchedHeld env o
          (window (heldRows env b shared (rawColumn (colCells cells k))) 0 (maxSpan cells).toNat)))⟩ := by
  have hpos : 0 < maxSpan cells := by
    obtain ⟨c, cs, rfl⟩ := List.exists_cons_of_ne_nil hne
    have hk : c.col ∈ columnsOf (c :: cs) := by
      rw [columnsOf, List.mem_insertionSort, List.mem_dedup]; simp
    have h1 := spanOf_pos hk
    have h2 := (foldr_max_spec (spanOf (c :: cs)) (columnsOf (c :: cs))).1 _ hk
    unfold maxSpan
    omega
  rw [C68_held env b shared o lib search reMatch {} cells hne hr hv ⟨show (0 : Int) < 30 by decide, le_refl (0 : Int)⟩ (by
    intro row h
    injection h with h
    injection h with h
    subst h
    simpa [HeaderArg.height] using hpos)]
  unfold sheetTableV
  simp only [lookupRowV, namesForV, if_true, filterKeys, HeaderArg.height, maskForV, List.isEmpty_nil, Nat.cast_zero,
    add_zero, sub_zero, Int.toNat_zero, tableOfV, applyDtypes]
  rw [makeTable_ok (n := (maxSpan cells).toNat)]
  · rfl
  · simp
  · intro a ha
    obtain ⟨k, _, rfl⟩ := List.mem_map.mp ha
    rw [hlib.of, Fetched.rows, heldView_length]
    rfl

/-- C53.  Header names, missing texts and any conflict resolution included: the composed texts of the header rows, or
`ArrowNotImplementedError` if one of the columns has a moment and a shared string there. -/
theorem C53_held_names (env : Env) (b : Bool) (shared : List (Option Str)) (o : ConcatOpts) (cells : List Cell)
    (hv : ValidCells env b shared cells) (row n : Nat) (hpos : 0 < n) (clash : Bool)
    (hcl : clash = clashIn o (cellCols env b shared cells) [] ((columnsOf cells).map fun k => ⟨k, row, n, none⟩)) :
    ∃ cols, collect env (freshSeries shared b o) [] cells = .ok cols ∧
      (makeHeader env cols row n).map (·.2) = if clash then .error .arrowNotImplemented else
        .ok ((List.range (columnsOf cells).length).map (headName
          ((columnsOf cells).map fun k => arrTexts env (fetchedHeld env o
            (window (heldRows env b shared (rawColumn (colCells cells k))) row n))) n)) := by
  obtain ⟨cols, e, hc⟩ := collect_ok env b shared o cells hv
  obtain ⟨hst, _⟩ := hc.after hv
  obtain ⟨m1, m2⟩ := makeHeader_after hst row n hpos
  rw [hc.sorted, ← hcl] at m1 m2
  refine ⟨cols, e, ?_⟩
  cases clash with
  | true => rw [m1 rfl]; rfl
  | false =>
    obtain ⟨cols', e2, _, _⟩ := m2 rfl
    have hl : cols.length = (columnsOf cells).length := by
      rw [← hc.sorted, sortedKeys, List.length_insertionSort, List.length_map]
    rw [e2, hl]
    rfl

/-- C53.  Header names of a single header row never fail. -/
theorem C53_held_one_row (env : Env) (b : Bool) (shared : List (Option Str)) (o : ConcatOpts) (cells : List Cell)
    (hv : ValidCells env b shared cells) (row : Nat) :
    ∃ cols, collect env (freshSeries shared b o) [] cells = .ok cols ∧
      (makeHeader env cols row 1).map (·.2) =
        .ok ((List.range (columnsOf cells).length).map (headName
          ((columnsOf cells).map fun k => arrTexts env (fetchedHeld env o
            (window (heldRows env b shared (rawColumn (colCells cells k))) row 1))) 1)) := by
  obtain ⟨cols, h1, h2⟩ := C53_held_names env b shared o cells hv row 1 (by decide) false (clashIn_one_row _ _).symm
  exact ⟨cols, h1, h2⟩

/-- C55.  Looking for a header, missing texts and any conflict resolution included: by column, the first row of the
window that is not null; by pattern, the first matching row of the first column with a match; or
`ArrowNotImplementedError` if a column looked at has a moment and a shared string there. -/
theorem C55_held_lookup (env : Env) (b : Bool) (shared : List (Option Str)) (o : ConcatOpts) (cells : List Cell)
    (hv : ValidCells env b shared cells) (search : Str → Option (Str → Bool)) (size : Nat) (hs : 0 < size)
    (clash : Lookup → Bool) (hcl : ∀ lk, clash lk = clashIn o (cellCols env b shared cells) []
      (lookupReadings env (heldView env o b shared cells) (firstSeen cells) size search lk)) :
    ∃ cols, collect env (freshSeries shared b o) [] cells = .ok cols ∧
      (∀ k, (∃ c ∈ cells, c.col = k) → (findHeader env search cols size (.column k)).map (·.2) =
        if clash (.column k) then .error .arrowNotImplemented else .ok (
        match (fetchedHeld env o (window (heldRows env b shared (rawColumn (colCells cells k))) 0 size)).vals.findIdx?
            Option.isSome with
        | some i => (i : Int)
        | none => -1)) ∧
      (∀ p f, search p = some f → (findHeader env search cols size (.pattern p)).map (·.2) =
        if clash (.pattern p) then .error .arrowNotImplemented else .ok (
        match (firstSeen cells).findSome? fun k => (arrTexts env (fetchedHeld env o
            (window (heldRows env b shared (rawColumn (colCells cells k))) 0 size))).findIdx? (Option.any f) with
        | some i => (i : Int)
        | none => -1)) := by
  obtain ⟨cols, e, hc⟩ := collect_ok env b shared o cells hv
  obtain ⟨hst, _⟩ := hc.after hv
  have hf := fun lk => findHeader_after hst search size hs lk
  rw [hc.order] at hf
  refine ⟨cols, e, fun k hk => ?_, fun p f hp => ?_⟩
  · obtain ⟨m1, m2⟩ := hf (.column k)
    rw [show sheetView env o (cellCols env b shared cells) = heldView env o b shared cells from rfl, ← hcl] at m1 m2
    cases hq : clash (.column k) with
    | true => rw [m1 hq]; rfl
    | false =>
      have m2 := m2 hq
      have hk' : k ∈ firstSeen cells := by rw [← hc.order]; exact (hc.keys k).mpr hk
      unfold lookupRowV at m2
      simp only [if_pos hk'] at m2
      obtain ⟨cols', e2, _, _⟩ := m2
      rw [e2]
      rfl
  · obtain ⟨m1, m2⟩ := hf (.pattern p)
    rw [show sheetView env o (cellCols env b shared cells) = heldView env o b shared cells from rfl, ← hcl] at m1 m2
    cases hq : clash (.pattern p) with
    | true => rw [m1 hq]; rfl
    | false =>
      have m2 := m2 hq
      unfold lookupRowV at m2
      simp only [hp] at m2
      obtain ⟨cols', e2, _, _⟩ := m2
      rw [e2]
      rfl

/-- C57.  The number of rows, missing texts and any conflict resolution included. -/
theorem C57_held_row_count {A D : Type} (env : Env) (b : Bool) (shared : List (Option Str)) (o : ConcatOpts)
    (lib : Lib A D) (hlib : lib.Lawful) (search : Str → Option (Str → Bool)) (reMatch : Str → Str → Py Bool)
    (args : ReadArgs D) (cells : List Cell) (hne : cells ≠ [])
    (hv : ValidCells env b shared cells) (ha : args.Sensible) (row : Nat)
    (hrow : lookupRowV env (heldView env o b shared cells) (firstSeen cells) args.lookupSize.toNat search args.lookup =
      .ok (some row))
    (hlen : 0 < maxSpan cells - row - args.header.height - args.skipAfter) (t : Table A)
    (h : readCells env lib search reMatch args (freshSeries shared b o) cells = .ok t) :
    t.names.length = (columnsOf cells).length ∧ t.arrays.length = (columnsOf cells).length ∧
    ∃ fs m, filterKeys reMatch t.names (columnsOf cells) args.filters = .ok fs ∧
      maskForV (heldView env o b shared cells) fs args.strategy
        (args.header.height + row + args.skipAfter).toNat
        (maxSpan cells - row - args.header.height - args.skipAfter).toNat = .ok m ∧
      ∀ a ∈ t.arrays, lib.len a = match m with
        | none => (maxSpan cells - row - args.header.height - args.skipAfter).toNat
        | some m => trueCount m := by
  have hrect := C57_rectangular env lib search reMatch args _ cells t h
  rw [C68_history env b shared o lib search reMatch args cells hne hv ha (by
    intro r hr
    rw [hrow] at hr
    injection hr with hr
    injection hr with hr
    subst hr
    exact hlen)] at h
  split at h
  · simp at h
  obtain ⟨r, names, fs, m, arrays, h1, h2, h3, h4, h5, rfl⟩ := sheetTableV_inv h
  rw [hrow] at h1
  injection h1 with h1
  injection h1 with h1
  subst h1
  have hl := namesForV_length h2
  refine ⟨hl, hrect.1.symm.trans hl, fs, m, h3, h4, ?_⟩
  have h6 := (applyDtypes_len hlib (by simp [hl]) h5 (n := keptRows (maxSpan cells - row - args.header.height - args.skipAfter).toNat m) (by
    intro a ha
    obtain ⟨k, _, rfl⟩ := List.mem_map.mp ha
    rw [hlib.of, Fetched.rows, heldView_length])).2
  intro a ha
  rw [h6 a ha]
  cases m <;> rfl

/-- C58, partial: a cell in a data row above the greatest span is in the table, at its row and in its column, missing
texts and any conflict resolution included.  Missing: cells at or below that row, which are lost. -/
theorem C58_held_within_partial {A D : Type} (env : Env) (b : Bool) (shared : List (Option Str)) (o : ConcatOpts)
    (lib : Lib A D) (search : Str → Option (Str → Bool)) (reMatch : Str → Str → Py Bool) (args : ReadArgs D)
    (cells : List Cell) (hne : cells ≠ [])
    (hv : ValidCells env b shared cells) (ha : args.Sensible) (hdt : args.dtypes = .none) (hfl : args.filters = .none)
    (hinc : ∀ k, (colCells cells k).Pairwise fun x y => x.row < y.row) (row : Nat)
    (hrow : lookupRowV env (heldView env o b shared cells) (firstSeen cells) args.lookupSize.toNat search args.lookup =
      .ok (some row)) (t : Table A)
    (h : readCells env lib search reMatch args (freshSeries shared b o) cells = .ok t)
    (c : Cell) (hc : c ∈ cells) (h1 : args.header.height + row + args.skipAfter ≤ c.row)
    (h2 : (c.row : Int) < maxSpan cells + (-(args.header.height + row + args.skipAfter)).toNat) :
    ∃ (j : Nat) (v w : Option Val) (arr : Arr), (columnsOf cells)[j]? = some c.col ∧
      t.arrays[j]? = some (lib.ofFetched (.arr arr)) ∧ rawValue env b shared c.xdt c.val = some v ∧
      (w = v ∨ o.confNum = true ∧ w = some (heldNumber env v) ∨ o.confDt = true ∧ ∃ run, w = heldMoment env o run v) ∧
      arr.vals[c.row - (args.header.height + row + args.skipAfter).toNat]? = some (w.map (rendered env arr.dtype)) := by
  rw [C68_history env b shared o lib search reMatch args cells hne hv ha (by
    intro r hr
    rw [hrow] at hr
    injection hr with hr
    injection hr with hr
    subst hr
    omega)] at h
  split at h
  · simp at h
  obtain ⟨r, names, fs, m, arrays, g1, g2, g3, g4, g5, rfl⟩ := sheetTableV_inv h
  rw [hrow] at g1
  injection g1 with g1
  injection g1 with g1
  subst g1
  rw [hfl, filterKeys] at g3
  injection g3 with g3
  subst g3
  rw [maskForV, if_pos (by rfl)] at g4
  injection g4 with g4
  subst g4
  rw [hdt, applyDtypes] at g5
  injection g5 with g5
  subst g5
  have hk : c.col ∈ columnsOf cells := by
    rw [columnsOf, List.mem_insertionSort, List.mem_dedup]
    exact List.mem_map_of_mem hc
  obtain ⟨j, hj, hjk⟩ := List.getElem_of_mem hk
  obtain ⟨v, hval⟩ := Option.isSome_iff_exists.mp (hv c hc)
  have hcc : c ∈ colCells cells c.col := List.mem_filter.mpr ⟨hc, by simp⟩
  have hraw : rawAt (colCells cells c.col) c.row = some (c.xdt, c.val) := by
    unfold rawAt
    have : ((colCells cells c.col).find? fun d => decide (c.row ≤ d.row)) = some c := by
      rw [List.find?_eq_some_iff_append]
      refine ⟨by simp, ?_⟩
      obtain ⟨as, bs, e⟩ := List.append_of_mem hcc
      refine ⟨as, bs, e, fun a ha => ?_⟩
      have := hinc c.col
      rw [e, List.pairwise_append] at this
      have := this.2.2 a ha c (by simp)
      simp; omega
    rw [this]
    simp
  have hrl : c.row < height (colCells cells c.col) := height_ge hcc
  have hcol : (rawColumn (colCells cells c.col))[c.row]? = some (some (c.xdt, c.val)) := by
    simp [rawColumn, hrl, hraw]
  obtain ⟨n, hcell⟩ : ∃ n, cellAt (heldRows env b shared (rawColumn (colCells cells c.col))) c.row = some (n, v) := by
    have hln : c.row < (runNumbers 0 none (rawColumn (colCells cells c.col))).length := by
      rw [runNumbers_length]; simp [rawColumn, hrl]
    refine ⟨(runNumbers 0 none (rawColumn (colCells cells c.col)))[c.row], ?_⟩
    unfold cellAt heldRows
    rw [List.getElem?_zipWith, hcol, List.getElem?_eq_getElem hln]
    simp [hval]
  have hwin : (window (heldRows env b shared (rawColumn (colCells cells c.col)))
      (args.header.height + row + args.skipAfter).toNat
      (maxSpan cells - row - args.header.height - args.skipAfter).toNat)[c.row -
        (args.header.height + row + args.skipAfter).toNat]? = some (some (n, v)) := by
    have hlt : c.row - (args.header.height + row + args.skipAfter).toNat <
      (maxSpan cells - row - args.header.height - args.skipAfter).toNat := by omega
    unfold window
    rw [List.getElem?_map, List.getElem?_range hlt]
    simp only [Option.map_some]
    rw [show (args.header.height + row + args.skipAfter).toNat + (c.row -
      (args.header.height + row + args.skipAfter).toNat) = c.row by omega, hcell]
  have hres : ∀ (l : List (Option (Nat × Option Val))) (i : Nat), l[i]? = some (some (n, v)) → ∃ w, (w = v ∨
      o.confNum = true ∧ w = some (heldNumber env v) ∨ o.confDt = true ∧ ∃ run, w = heldMoment env o run v) ∧
      (resolvedHeld env o l)[i]? = some (some w) := by
    intro l i hi
    unfold resolvedHeld
    split
    · cases hd : o.confDt with
      | true => exact ⟨_, .inr (.inr ⟨rfl, runHeld l n, rfl⟩), by simp [hi]⟩
      | false => exact ⟨v, .inl rfl, by simp [hi]⟩
    · split
      · rename_i h
        simp only [Bool.and_eq_true] at h
        by_cases hq : numericTexts env (heldUpTo l n) = true
        · exact ⟨_, .inr (.inl ⟨h.1, rfl⟩), by simp [hi, hq]⟩
        · exact ⟨v, .inl rfl, by simp [hi, hq]⟩
      · exact ⟨v, .inl rfl, by simp [hi]⟩
  obtain ⟨w, hw, hw2⟩ := hres _ _ hwin
  refine ⟨j, v, w, fetchedHeld env o (pickRows (heldRows env b shared (rawColumn (colCells cells c.col)))
    (args.header.height + row + args.skipAfter).toNat
    (maxSpan cells - row - args.header.height - args.skipAfter).toNat none), ?_, ?_, hval, hw, ?_⟩
  · rw [List.getElem?_eq_getElem hj, hjk]
  · rw [List.getElem?_map, List.getElem?_eq_getElem hj, hjk]; rfl
  · simp only [fetchedHeld, pickRows, List.getElem?_map, hw2, Option.map_some, Option.join_some]

/-- C58, exactly: without filters and types, of the cells at or below the first data row those above the greatest span
of a column, and no others, have a row in the table; as many rows more as the offset is below zero. -/
theorem C58_exact {A D : Type} (env : Env) (b : Bool) (shared : List (Option Str)) (o : ConcatOpts)
    (lib : Lib A D) (hlib : lib.Lawful) (search : Str → Option (Str → Bool)) (reMatch : Str → Str → Py Bool)
    (args : ReadArgs D) (cells : List Cell) (hne : cells ≠ [])
    (hv : ValidCells env b shared cells) (ha : args.Sensible) (hdt : args.dtypes = .none) (hfl : args.filters = .none)
    (hinc : ∀ k, (colCells cells k).Pairwise fun x y => x.row < y.row) (row : Nat)
    (hrow : lookupRowV env (heldView env o b shared cells) (firstSeen cells) args.lookupSize.toNat search args.lookup =
      .ok (some row)) (hlen : args.header.height + row + args.skipAfter < maxSpan cells) (t : Table A)
    (h : readCells env lib search reMatch args (freshSeries shared b o) cells = .ok t)
    (c : Cell) (hc : c ∈ cells) (h1 : args.header.height + row + args.skipAfter ≤ c.row) :
    (∃ (j : Nat) (arr : Arr), (columnsOf cells)[j]? = some c.col ∧ t.arrays[j]? = some (lib.ofFetched (.arr arr)) ∧
      c.row - (args.header.height + row + args.skipAfter).toNat < arr.vals.length) ↔
      (c.row : Int) < maxSpan cells + (-(args.header.height + row + args.skipAfter)).toNat := by
  constructor
  · rintro ⟨j, arr, _, h2, h3⟩
    obtain ⟨_, _, fs, m, g1, g2, g3⟩ := C57_held_row_count env b shared o lib hlib search reMatch args cells hne hv ha row
      hrow (by omega) t h
    have := g3 _ (List.mem_of_getElem? h2)
    rw [hfl, filterKeys] at g1
    injection g1 with g1
    subst g1
    rw [maskForV, if_pos (by rfl)] at g2
    injection g2 with g2
    subst g2
    rw [hlib.of, Fetched.rows] at this
    simp only at this
    omega
  · intro h2
    obtain ⟨j, v, w, arr, e1, e2, _, _, e3⟩ := C58_held_within_partial env b shared o lib search reMatch args cells hne hv
      ha hdt hfl hinc row hrow t h c hc h1 h2
    exact ⟨j, arr, e1, e2, (List.getElem?_eq_some_iff.mp e3).1⟩

/-- The sheet of `exSkip` below: of the five cells only those in rows 3 and 4 have a row. -/
example : (readCells demoEnv exLib (fun _ => none) (fun _ _ => .ok false) ({} : ReadArgs DType)
    (freshSeries [] true ⟨false, false, [], 6⟩) [nm 3 0 1, nm 4 0 2, nm 5 0 3, nm 6 0 4, nm 7 0 5]).map (·.arrays) =
    .ok [.arr ⟨.i8, [none, none, none, some (.i8 1), some (.i8 2)]⟩] := by
  decide +kernel

/-- Finding, C48: without conflict resolution a cell without a text is a null, but the whole column becomes a column of
texts, whatever else is in it. -/
theorem C48_missing_text_makes_text (env : Env) (o : ConcatOpts) (hd : o.confDt = false) (hn : o.confNum = false)
    (rows : List (Option (Nat × Option Val))) (j : Nat) (h : some (j, none) ∈ rows) :
    fetchedHeld env o rows = ⟨.utf8, (heldCells rows).map (Option.map fun v => .str (cellText env v))⟩ := by
  have hres : resolvedHeld env o rows = rows.map (Option.map (·.2)) := by
    unfold resolvedHeld
    rw [hd, hn]
    cases (heldCells rows).any isTs <;> rfl
  have ht : heldType o.prec (rows.map (Option.map (·.2))) = .utf8 := by
    unfold heldType
    rw [if_pos]
    exact List.any_eq_true.mpr ⟨some none, List.mem_map.mpr ⟨_, h, rfl⟩, rfl⟩
  unfold fetchedHeld
  simp only [hres, ht, heldCells, List.map_map]
  congr 1
  apply List.map_congr_left
  intro r _
  cases r with
  | none => rfl
  | some r => obtain ⟨_, v⟩ := r; cases v <;> rfl

/-- Finding, C29: with numeric resolution, in a column of numbers and texts that read as numbers, a cell without a text
is the number 0. -/
theorem C29_missing_text_is_zero (env : Env) (o : ConcatOpts) (hn : o.confNum = true)
    (rows : List (Option (Nat × Option Val))) (hts : ∀ n, some (.ts n) ∉ heldCells rows)
    (hnum : ∃ x, some (.f8 x) ∈ heldCells rows)
    (htx : ∀ s, some (.str s) ∈ heldCells rows → (env.parseF8 s).isSome = true) :
    fetchedHeld env o rows = materialise env o.prec (rows.map (Option.map fun r => heldNumber env r.2)) := by
  classical
  have h1 : (heldCells rows).any isTs = false := by
    rw [List.any_eq_false]
    intro v hv
    cases v with
    | none => simp [isTs]
    | some v => cases v <;> simp [isTs]; exact absurd hv (hts _)
  have h2 : (heldCells rows).any isNum = true := by
    obtain ⟨x, hx⟩ := hnum
    exact List.any_eq_true.mpr ⟨_, hx, rfl⟩
  have h3 : ∀ j, numericTexts env (heldUpTo rows j) = true := by
    intro j
    rw [numericTexts_mem]
    intro s hs
    apply htx
    unfold heldUpTo at hs
    obtain ⟨r, hr, e⟩ := List.mem_map.mp hs
    obtain ⟨hr, _⟩ := List.mem_filter.mp hr
    rw [List.reduceOption_mem_iff] at hr
    exact List.mem_map.mpr ⟨_, hr, by simpa using e⟩
  have hres : resolvedHeld env o rows = (rows.map (Option.map fun r => heldNumber env r.2)).map (Option.map some) := by
    unfold resolvedHeld
    rw [h1, h2, hn]
    simp only [Bool.false_eq_true, if_false, Bool.and_self, if_true, h3, List.map_map]
    apply List.map_congr_left
    intro r _
    cases r <;> rfl
  have hm : ((rows.map (Option.map fun r => heldNumber env r.2)).map (Option.map some)).any isMissing = false := by
    rw [List.any_eq_false]
    intro c hc
    obtain ⟨c', _, rfl⟩ := List.mem_map.mp hc
    cases c' <;> simp [isMissing]
  have hj : ((rows.map (Option.map fun r => heldNumber env r.2)).map (Option.map some)).map Option.join =
      rows.map (Option.map fun r => heldNumber env r.2) := by
    rw [List.map_map]
    conv_rhs => rw [← List.map_id (rows.map _)]
    apply List.map_congr_left
    intro c _
    cases c <;> rfl
  unfold fetchedHeld materialise
  simp only [hres, heldType, hm, Bool.false_eq_true, if_false, hj]
  congr 1
  rw [List.map_map]
  apply List.map_congr_left
  intro c _
  cases c <;> rfl

example : exReadR false false [none] [nm 0 0 1, sh 1 0 0, nm 2 0 3, dt 0 1 25570, nm 1 1 3] =
    .ok [.arr ⟨.utf8, [some (.str ['1']), none, some (.str ['3'])]⟩,
      .arr ⟨.utf8, [some (.str ['T', '8', '6', '4', '0', '0', '0', '0', '0']), some (.str ['3']), none]⟩] := by
  decide +kernel

example : exReadR false true [none, some ['7']] [nm 0 0 1, sh 1 0 0, nm 2 0 3, sh 4 0 1] =
    .ok [.arr ⟨.i8, [some (.i8 1), some (.i8 0), some (.i8 3), none, some (.i8 7)]⟩] := by
  decide +kernel

/-- `read` with temporal resolution on a sheet of one column: the texts `a` and `D1`, a date. -/
def exHistory (args : ReadArgs DType) : Py (Table Fetched) :=
  readCells demoEnv exLib (fun _ => none) (fun _ _ => .ok false) args
    (freshSeries [some ['a'], some ['D', '1']] true ⟨true, true, [], 6⟩) [sh 0 0 0, sh 1 0 1, dt 2 0 25571]

/-- Finding, C68: whether the table below a header can be read depends on what has been looked at before.  The header
in row 0 alone: the data rows have a shared string and a date, and `read` fails.  If the lookup of the header takes
just the two texts, they are texts from then on and the same data rows are two moments.  If the lookup takes one row
more it fails by itself. -/
theorem C68_lookup_size_finding :
    exHistory { header := .rows 1 } = .error .arrowNotImplemented ∧
    exHistory { header := .rows 1, lookup := .column 0, lookupSize := 1 } = .error .arrowNotImplemented ∧
    exHistory { header := .rows 1, lookup := .column 0, lookupSize := 2 } =
      .ok ⟨[['a']], [.arr ⟨.ts, [some (.ts 86400000), some (.ts 172800000)]⟩]⟩ ∧
    exHistory { header := .rows 1, lookup := .column 0, lookupSize := 3 } = .error .arrowNotImplemented := by
  decide +kernel

/-- `read` with no header on a column with the numbers 1 to 5 in rows 3 to 7, skipping rows. -/
def exSkip (skip : Int) : Py (List Fetched) :=
  (readCells demoEnv exLib (fun _ => none) (fun _ _ => .ok false) { skipAfter := skip : ReadArgs DType }
    (freshSeries [] true ⟨false, false, [], 6⟩) [nm 3 0 1, nm 4 0 2, nm 5 0 3, nm 6 0 4, nm 7 0 5]).map (·.arrays)

/-- Finding, C57: `read` counts the rows of the longest column, here 5, but starts at row 0 of the sheet.  Of 8 rows and
`skip_rows_after_header` 4 one row is read, not four (C58); but with 5 the length is 0, which `concatenate` takes for
"all there is", and three rows are read; with 6 it is -1, which leaves out the last row; with 8 it is an error. -/
theorem C57_zero_length_finding :
    exSkip 4 = .ok [.arr ⟨.i8, [some (.i8 2)]⟩] ∧
    exSkip 5 = .ok [.arr ⟨.i8, [some (.i8 3), some (.i8 4), some (.i8 5)]⟩] ∧
    exSkip 6 = .ok [.arr ⟨.i8, [some (.i8 4)]⟩] ∧
    exSkip 8 = .error .valueError := by
  decide +kernel

/-- What the call reads, and that nothing of it fails. -/
example : sheetReadings demoEnv (fun _ => none) (fun _ _ => .ok false)
      { header := .rows 1, lookup := .column 0, lookupSize := 2 : ReadArgs DType }
      (heldView demoEnv ⟨true, true, [], 6⟩ true [some ['a'], some ['D', '1']] [sh 0 0 0, sh 1 0 1, dt 2 0 25571])
      [0] [0] 3 = [⟨0, 0, 2, none⟩, ⟨0, 0, 1, none⟩, ⟨0, 1, 2, none⟩] ∧
    clashIn ⟨true, true, [], 6⟩ (cellCols demoEnv true [some ['a'], some ['D', '1']] [sh 0 0 0, sh 1 0 1, dt 2 0 25571])
      [] [⟨0, 0, 2, none⟩, ⟨0, 0, 1, none⟩, ⟨0, 1, 2, none⟩] = false ∧
    clashIn ⟨true, true, [], 6⟩ (cellCols demoEnv true [some ['a'], some ['D', '1']] [sh 0 0 0, sh 1 0 1, dt 2 0 25571])
      [] [⟨0, 0, 1, none⟩, ⟨0, 1, 2, none⟩] = true := by
  decide +kernel

end Rxls
