import Verif.Props.TakeRows
import Verif.Spec.SortRows

/-! # Property C120: rows in another order -/

namespace Rxls

theorem pickAt_map {α β : Type} (f : α → β) (d : α) (e : β) (h : f d = e) (idx : List Nat) (l : List α) :
    (pickAt d idx l).map f = pickAt e idx (l.map f) := by
  unfold pickAt
  rw [List.map_map]
  apply List.map_congr_left
  intro i _
  simp only [Function.comp_apply, List.getD_eq_getElem?_getD, List.getElem?_map]
  cases l[i]? <;> simp [h]

theorem pickAt_perm {α : Type} (d : α) {idx : List Nat} {l : List α} (h : idx.Perm (List.range l.length)) :
    (pickAt d idx l).Perm l := by
  refine (h.map fun i => l.getD i d).trans ?_
  have : (List.range l.length).map (fun i => l.getD i d) = l := by
    apply List.ext_getElem?
    intro i
    rw [List.getElem?_map]
    by_cases hi : i < l.length
    · rw [List.getElem?_range hi, Option.map_some, List.getD_eq_getElem?_getD, List.getElem?_eq_getElem hi]
      rfl
    · rw [List.getElem?_eq_none (by simpa using hi), List.getElem?_eq_none (by omega)]
      rfl
  rw [this]

theorem reorder_perm {n : Nat} {idx : List Nat} {g : VGrid} (h : g.Reorders n idx) : (g.reorder n idx).Perm g := by
  unfold VGrid.reorder
  have : (pickAt [] idx (g.drop n)).Perm (g.drop n) := pickAt_perm [] (by simpa [VGrid.Reorders] using h)
  exact (this.append_left _).trans (by rw [List.take_append_drop])

theorem reorder_without (n : Nat) (idx : List Nat) (g : VGrid) (cols : List Int) :
    (g.reorder n idx).without cols = VGrid.reorder n idx (g.without cols) := by
  unfold VGrid.reorder VGrid.without
  rw [List.map_append, List.map_take, pickAt_map _ [] [] (by rfl), List.map_drop]

theorem perm_columns {g g' : VGrid} (h : g'.Perm g) : g'.columns = g.columns := by
  unfold VGrid.columns VGrid.cols
  have hp : ((g'.flatten.map (·.1)).dedup).Perm ((g.flatten.map (·.1)).dedup) := (h.flatten.map _).dedup
  exact ((List.perm_insertionSort _ _).trans (hp.trans (List.perm_insertionSort _ _).symm)).eq_of_sortedLE
    List.sortedLE_insertionSort List.sortedLE_insertionSort

/-- The window of a column from row `n` on. -/
theorem window_drop (g : VGrid) (k : Int) (n : Nat) :
    window (g.column k) n (g.length - n) = (g.drop n).map fun row => (row.find? fun p => p.1 = k).map (·.2) := by
  apply List.ext_getElem?
  intro i
  unfold window
  rw [List.getElem?_map, List.getElem?_map, List.getElem?_drop]
  by_cases hi : i < g.length - n
  · rw [List.getElem?_range hi, Option.map_some, List.getElem?_eq_getElem (show n + i < g.length by omega)]
    unfold cellAt VGrid.column VGrid.at
    rw [List.getElem?_map, List.getElem?_range (show n + i < g.length by omega)]
    simp only [Option.map_some, Option.join_some, List.getD_eq_getElem?_getD,
      List.getElem?_eq_getElem (show n + i < g.length by omega), Option.getD_some]
  · rw [List.getElem?_eq_none (by simpa using hi), List.getElem?_eq_none (show g.length ≤ n + i by omega)]
    rfl

theorem window_reorder {n : Nat} {idx : List Nat} {g : VGrid} (h : g.Reorders n idx) (hn : n ≤ g.length) (k : Int) :
    window ((g.reorder n idx).column k) n (g.length - n) = pickAt none idx (window (g.column k) n (g.length - n)) := by
  have hl : (g.reorder n idx).length = g.length := (reorder_perm h).length_eq
  have h1 := window_drop (g.reorder n idx) k n
  rw [hl] at h1
  rw [h1, window_drop]
  unfold VGrid.reorder
  rw [List.drop_append_of_le_length (by simp [hn]), List.drop_eq_nil_of_le (by simp), List.nil_append,
    pickAt_map _ [] none (by rfl)]

/-- The first rows are where they were. -/
theorem window_head {n : Nat} {idx : List Nat} {g : VGrid} (h : g.Reorders n idx) (hn : n ≤ g.length) (k : Int) (m : Nat)
    (hm : m ≤ n) : window ((g.reorder n idx).column k) 0 m = window (g.column k) 0 m := by
  have hl : (g.reorder n idx).length = g.length := (reorder_perm h).length_eq
  unfold window
  apply List.map_congr_left
  intro i hi
  rw [List.mem_range] at hi
  unfold cellAt VGrid.column VGrid.at
  rw [List.getElem?_map, List.getElem?_map, hl, List.getElem?_range (show 0 + i < g.length by omega)]
  simp only [Option.map_some, Option.join_some, List.getD_eq_getElem?_getD]
  have : (g.reorder n idx)[0 + i]? = g[0 + i]? := by
    unfold VGrid.reorder
    rw [List.getElem?_append_left (by simp; omega), List.getElem?_take_of_lt (by omega)]
  rw [this]

/-- The array of a column follows the order of its cells. -/
theorem fetched_reorder (env : Env) (o : ConcatOpts) {idx : List Nat} {cells : List (Option Val)}
    (h : idx.Perm (List.range cells.length)) :
    fetched env o (pickAt none idx cells) =
      ⟨(fetched env o cells).dtype, pickAt none idx (fetched env o cells).vals⟩ := by
  have hp := pickAt_perm (none : Option Val) h
  have hr : resolved env o (pickAt none idx cells) = pickAt none idx (resolved env o cells) := by
    unfold resolved asMoment momentTexts numericTexts
    simp only [hp.any_eq, hp.all_eq]
    split
    · split
      · exact pickAt_map _ _ _ (by rfl) _ _
      · rfl
    · split
      · exact pickAt_map _ _ _ (by rfl) _ _
      · rfl
  have hl : (resolved env o cells).length = cells.length := resolved_length env o cells
  have hp' := pickAt_perm (none : Option Val) (idx := idx) (l := resolved env o cells) (by rw [hl]; exact h)
  have ht : columnType o.prec (pickAt none idx (resolved env o cells)) = columnType o.prec (resolved env o cells) := by
    unfold columnType
    simp only [hp'.any_eq, hp'.all_eq]
  unfold fetched materialise
  rw [hr, ht]
  simp only
  rw [pickAt_map _ none none (by rfl)]

/-- Reordering and tables. -/
theorem table_reorder {A D : Type} {env : Env} {lib : Lib A D} (hlib : lib.Lawful) {search : Str → Option (Str → Bool)}
    {reMatch : Str → Str → Py Bool} {args : ReadArgs D} {o : ConcatOpts} {g : VGrid} {t : Table A} {n : Nat}
    {idx : List Nat} {c : Int} (hf : g.FullColumn c) (hh : 0 ≤ args.header.height) (hs : 0 ≤ args.skipAfter)
    (hn : (n : Int) = args.header.height + args.skipAfter) (hle : n ≤ g.length) (hi : g.Reorders n idx)
    (hlk : args.lookup = .none) (hfl : args.filters = .none) (hd : args.dtypes = .none)
    (h : g.table env lib search reMatch args o = .ok t) :
    ∃ cols : List Arr, t.arrays = cols.map (fun a => lib.ofFetched (.arr a)) ∧
      (g.reorder n idx).table env lib search reMatch args o =
        .ok ⟨t.names, cols.map fun a => lib.ofFetched (.arr ⟨a.dtype, pickAt none idx a.vals⟩)⟩ := by
  have hperm := reorder_perm hi
  have hl : (g.reorder n idx).length = g.length := hperm.length_eq
  have hms := full_maxSpan hf
  have hf' : (g.reorder n idx).FullColumn c := fun row hrow => hf row (hperm.mem_iff.mp hrow)
  have hms' := full_maxSpan hf'
  obtain ⟨h1, h2⟩ := table_arrays hlk hfl h
  rw [hd, applyDtypes] at h2
  injection h2 with h2
  have e1 : (args.header.height + args.skipAfter).toNat = n := by omega
  have e2 : ((g.maxSpan : Int) - args.header.height - args.skipAfter).toNat = g.length - n := by omega
  rw [e1, e2] at h2
  refine ⟨g.columns.map fun k => fetched env o (window (g.column k) n (g.length - n)), ?_, ?_⟩
  · rw [← h2, List.map_map]
    rfl
  · obtain ⟨r, names, fs, m, arrays, g1, g2, g3, g4, g5, rfl⟩ := sheetTable_inv h
    rw [hlk, lookupRow] at g1
    injection g1 with g1
    injection g1 with g1
    subst g1
    unfold VGrid.table sheetTable
    rw [hlk, lookupRow, perm_columns hperm, hms', hl]
    have hnames : namesFor env o (g.reorder n idx).column g.columns 0 args.header = .ok names := by
      rw [← g2]
      cases hhd : args.header with
      | names l => rfl
      | rows m =>
        rw [hhd] at hn hh
        simp only [HeaderArg.height] at hn hh
        simp only [namesFor]
        by_cases hm0 : m = 0
        · rw [if_pos hm0, if_pos hm0]
        rw [if_neg hm0, if_neg hm0]
        · congr 2
          congr 1
          apply List.map_congr_left
          intro k _
          rw [window_head hi hle k m.toNat (by omega)]
    simp only [hnames, hfl, filterKeys, maskFor, List.isEmpty_nil, if_true, pickRows, Nat.cast_zero, Int.add_zero,
      Int.sub_zero, e1]
    have e3 : ((g.length : Int) - args.header.height - args.skipAfter).toNat = g.length - n := by omega
    rw [e3]
    unfold tableOf
    rw [hd, applyDtypes]
    simp only [pickRows]
    have harr : (g.columns.map fun k => lib.ofFetched (.arr (fetched env o
          (window ((g.reorder n idx).column k) n (g.length - n))))) =
        (g.columns.map fun k => fetched env o (window (g.column k) n (g.length - n))).map fun a =>
          lib.ofFetched (.arr ⟨a.dtype, pickAt none idx a.vals⟩) := by
      rw [List.map_map]
      apply List.map_congr_left
      intro k _
      rw [window_reorder hi hle, fetched_reorder env o (by simpa [window, VGrid.Reorders] using hi)]
      rfl
    rw [harr]
    refine makeTable_ok ?_ (n := idx.length) ?_
    · simpa using h1
    · intro a ha
      obtain ⟨x, _, rfl⟩ := List.mem_map.mp ha
      rw [hlib.of]
      simp [Fetched.rows, pickAt]

/-- C120, XLSX, partial: in a file with the same rows, but those below the header and the rows skipped after it in
another order, these rows of the table are in that order; names and types are the same.  A column has a value in every
row, and conflict resolution is a matter of values.  Missing: sheets without such a column, and other texts among
numbers or dates that are to be resolved, where this is false. -/
theorem C120_xlsx_partial {A D : Type} (env : Env) (lib : Lib A D) (hlib : lib.Lawful)
    (search : Str → Option (Str → Bool)) (reMatch : Str → Str → Py Bool) (toInt : Str → Option Int) (a : FileArgs D)
    (hk : a.iter.skipRows = 0) (ht : a.iter.takeRows = 0) (ha : a.table.Sensible) (p p' : Package)
    (hp : workbookXml ∈ p.names) (hp' : workbookXml ∈ p'.names) (isNull : Str → Bool)
    (hnull : ∀ s, isNull s = (decide (s ∈ errorTexts) || a.nulls.asks s))
    (o : ConcatOpts) (ho : o = concatOpts a.conflict a.formats a.precision)
    (formats formats' : List StyleClass) (shared shared' : List Str) (g g' : TGrid)
    (h : p.xlsx.Holds env toInt a.iter.sheet isNull formats shared g)
    (h' : p'.xlsx.Holds env toInt a.iter.sheet isNull formats' shared' g') (W : VGrid)
    (hW : W = g.values env isNull formats shared) (n : Nat) (idx : List Nat) (hi : W.Reorders n idx)
    (hW' : g'.values env isNull formats' shared' = W.reorder n idx)
    (hres : (W.without a.iter.skipCols).Resolvable env o g.inline)
    (hres' : ((W.reorder n idx).without a.iter.skipCols).Resolvable env o g'.inline)
    (c : Int) (hf : W.FullColumn c) (hc : c ∉ a.iter.skipCols)
    (hs : 0 ≤ a.table.skipAfter) (hn : (n : Int) = a.table.header.height + a.table.skipAfter) (hlt : n < W.length)
    (hlk : a.table.lookup = .none) (hfl : a.table.filters = .none) (hd : a.table.dtypes = .none) (t : Table A)
    (hr : readFile env lib search reMatch toInt a p = .ok t) :
    ∃ cols : List Arr, t.arrays = cols.map (fun x => lib.ofFetched (.arr x)) ∧
      readFile env lib search reMatch toInt a p' =
        .ok ⟨t.names, cols.map fun x => lib.ofFetched (.arr ⟨x.dtype, pickAt none idx x.vals⟩)⟩ := by
  have hperm := reorder_perm hi
  have hl : (W.without a.iter.skipCols).length = W.length := by simp [VGrid.without]
  have hfull := without_full hf hc
  have hf' : (W.reorder n idx).FullColumn c := fun row hrow => hf row (hperm.mem_iff.mp hrow)
  have hfull' := without_full hf' hc
  have hl' : ((W.reorder n idx).without a.iter.skipCols).length = W.length := by
    rw [← hperm.length_eq]; simp [VGrid.without]
  have e := C69_xlsx env lib search reMatch toInt a 0 0 hk ht ha p hp isNull hnull o ho formats shared g h
    (W.without a.iter.skipCols) (by
      rw [← hW, (full_shown hf hc 0 a.iter.keepEmpty).1, rowsTaken, if_pos rfl, ← hl, List.take_length]) hres (by
      intro _ row hrow
      rw [hlk, lookupRow] at hrow
      injection hrow with hrow
      injection hrow with hrow
      rw [full_maxSpan hfull, hl]
      omega)
  have e' := C69_xlsx env lib search reMatch toInt a 0 0 hk ht ha p' hp' isNull hnull o ho formats' shared' g' h'
    ((W.reorder n idx).without a.iter.skipCols) (by
      rw [hW', (full_shown hf' hc 0 a.iter.keepEmpty).1, rowsTaken, if_pos rfl, hperm.length_eq, ← hl', List.take_length])
      hres' (by
      intro _ row hrow
      rw [hlk, lookupRow] at hrow
      injection hrow with hrow
      injection hrow with hrow
      rw [full_maxSpan hfull', hl']
      omega)
  rw [hr] at e
  split at e
  · simp at e
  rename_i hne
  obtain ⟨cols, h1, h2⟩ := table_reorder hlib (n := n) (idx := idx) hfull ha.header hs hn (by omega)
    (by unfold VGrid.Reorders at hi ⊢; rw [hl]; exact hi) hlk hfl hd e.symm
  refine ⟨cols, h1, ?_⟩
  rw [e', if_neg ?_, reorder_without, h2]
  intro h0
  obtain ⟨row, hrow⟩ := List.exists_mem_of_length_pos (show 0 < ((W.reorder n idx).without a.iter.skipCols).length by omega)
  obtain ⟨x, hx, _⟩ := hfull' row hrow
  have := List.mem_flatten.mpr ⟨row, hrow, hx⟩
  rw [h0] at this
  simp at this

/-- C120, XLSB, partial: the same. -/
theorem C120_xlsb_partial {A D : Type} (env : Env) (lib : Lib A D) (hlib : lib.Lawful)
    (search : Str → Option (Str → Bool)) (reMatch : Str → Str → Py Bool) (toInt : Str → Option Int) (a : FileArgs D)
    (hk : a.iter.skipRows = 0) (ht : a.iter.takeRows = 0) (ha : a.table.Sensible) (p p' : Package)
    (hp : workbookXml ∉ p.names) (hp' : workbookXml ∉ p'.names) (hb : workbookBin ∈ p.names)
    (hb' : workbookBin ∈ p'.names)
    (o : ConcatOpts) (ho : o = concatOpts a.conflict a.formats a.precision)
    (temporal temporal' : List Bytes) (shared shared' : List Str) (g g' : Grid)
    (h : p.xlsb.Holds a.iter.sheet a.nulls.asks temporal shared g)
    (h' : p'.xlsb.Holds a.iter.sheet a.nulls.asks temporal' shared' g') (W : VGrid)
    (hW : W = g.values temporal shared a.nulls.asks) (n : Nat) (idx : List Nat) (hi : W.Reorders n idx)
    (hW' : g'.values temporal' shared' a.nulls.asks = W.reorder n idx)
    (hres : (W.without a.iter.skipCols).Resolvable env o g.inline)
    (hres' : ((W.reorder n idx).without a.iter.skipCols).Resolvable env o g'.inline)
    (c : Int) (hf : W.FullColumn c) (hc : c ∉ a.iter.skipCols)
    (hs : 0 ≤ a.table.skipAfter) (hn : (n : Int) = a.table.header.height + a.table.skipAfter) (hlt : n < W.length)
    (hlk : a.table.lookup = .none) (hfl : a.table.filters = .none) (hd : a.table.dtypes = .none) (t : Table A)
    (hr : readFile env lib search reMatch toInt a p = .ok t) :
    ∃ cols : List Arr, t.arrays = cols.map (fun x => lib.ofFetched (.arr x)) ∧
      readFile env lib search reMatch toInt a p' =
        .ok ⟨t.names, cols.map fun x => lib.ofFetched (.arr ⟨x.dtype, pickAt none idx x.vals⟩)⟩ := by
  have hperm := reorder_perm hi
  have hl : (W.without a.iter.skipCols).length = W.length := by simp [VGrid.without]
  have hfull := without_full hf hc
  have hf' : (W.reorder n idx).FullColumn c := fun row hrow => hf row (hperm.mem_iff.mp hrow)
  have hfull' := without_full hf' hc
  have hl' : ((W.reorder n idx).without a.iter.skipCols).length = W.length := by
    rw [← hperm.length_eq]; simp [VGrid.without]
  have e := C69_xlsb env lib search reMatch toInt a 0 0 hk ht ha p hp hb o ho temporal shared g h
    (W.without a.iter.skipCols) (by
      rw [← hW, (full_shown hf hc 0 a.iter.keepEmpty).2, rowsTaken, if_pos rfl, ← hl, List.take_length]) hres (by
      intro _ row hrow
      rw [hlk, lookupRow] at hrow
      injection hrow with hrow
      injection hrow with hrow
      rw [full_maxSpan hfull, hl]
      omega)
  have e' := C69_xlsb env lib search reMatch toInt a 0 0 hk ht ha p' hp' hb' o ho temporal' shared' g' h'
    ((W.reorder n idx).without a.iter.skipCols) (by
      rw [hW', (full_shown hf' hc 0 a.iter.keepEmpty).2, rowsTaken, if_pos rfl, hperm.length_eq, ← hl', List.take_length])
      hres' (by
      intro _ row hrow
      rw [hlk, lookupRow] at hrow
      injection hrow with hrow
      injection hrow with hrow
      rw [full_maxSpan hfull', hl']
      omega)
  rw [hr] at e
  split at e
  · simp at e
  rename_i hne
  obtain ⟨cols, h1, h2⟩ := table_reorder hlib (n := n) (idx := idx) hfull ha.header hs hn (by omega)
    (by unfold VGrid.Reorders at hi ⊢; rw [hl]; exact hi) hlk hfl hd e.symm
  refine ⟨cols, h1, ?_⟩
  rw [e', if_neg ?_, reorder_without, h2]
  intro h0
  obtain ⟨row, hrow⟩ := List.exists_mem_of_length_pos (show 0 < ((W.reorder n idx).without a.iter.skipCols).length by omega)
  obtain ⟨x, hx, _⟩ := hfull' row hrow
  have := List.mem_flatten.mpr ⟨row, hrow, hx⟩
  rw [h0] at this
  simp at this

/-- `exFiveGrid` with its rows below the first in the opposite order. -/
def exFiveTurned : XlsbFile :=
  let rs : List Record :=
    ⟨145, []⟩ :: (Grid.records exHdrs (exFiveGrid.take 1 ++ (exFiveGrid.drop 1).reverse) ++ [⟨402, []⟩])
  { exFile with parts := fun n => if n = "xl/s1".toList then some (bytesOf rs) else none }

example :
    (exFiveGrid.values [] [['x']] fun _ => false).Reorders 1 [3, 2, 1, 0] ∧
    (Grid.values [] [['x']] (fun _ => false) (exFiveGrid.take 1 ++ (exFiveGrid.drop 1).reverse)) =
      (exFiveGrid.values [] [['x']] fun _ => false).reorder 1 [3, 2, 1, 0] ∧
    ([exFiveFile, exFiveTurned].map fun f => (readFile demoEnv exLib (fun _ => none) (fun _ _ => .ok false) exInt
      { table := { header := .rows 1 } } ⟨[workbookBin], exXlsxFile, f⟩).map (·.arrays)) =
    [.ok [.arr ⟨.utf8, [some (.str ['2']), some (.str ['3']), some (.str ['4']), some (.str ['5'])]⟩,
        .arr ⟨.utf8, [none, none, some (.str ['x']), none]⟩],
      .ok [.arr ⟨.utf8, [some (.str ['5']), some (.str ['4']), some (.str ['3']), some (.str ['2'])]⟩,
        .arr ⟨.utf8, [none, some (.str ['x']), none, none]⟩]] := by
  refine ⟨?_, by decide +kernel, by decide +kernel⟩
  unfold VGrid.Reorders
  decide +kernel

/-- Finding, without a full column: rows are lost at the end of a sheet (C58), so that the order decides which.  The
same three rows: the value 2 is lost in one order, the text `q` in the other. -/
theorem C120_rows_finding :
    (exRead {} [tx 0 1 ['q'], nm 1 0 1, nm 2 0 2]).map (·.arrays) =
      .ok [.arr ⟨.i8, [none, some (.i8 1)]⟩, .arr ⟨.utf8, [some (.str ['q']), none]⟩] ∧
    (exRead {} [nm 0 0 1, nm 1 0 2, tx 2 1 ['q']]).map (·.arrays) =
      .ok [.arr ⟨.i8, [some (.i8 1), some (.i8 2)]⟩, .arr ⟨.utf8, [none, none]⟩] := by
  decide +kernel

/-- Finding, with numeric resolution: exchanging the last two rows changes the text in the second one, `7` in one order
and `007` in the other. -/
theorem C120_resolution_finding :
    exReadR false true [some ['0', '0', '7'], some ['x']] [nm 0 0 5, sh 1 0 0, nm 2 0 3, sh 3 0 1] =
      .ok [.arr ⟨.utf8, [some (.str ['5']), some (.str ['7']), some (.str ['3']), some (.str ['x'])]⟩] ∧
    exReadR false true [some ['0', '0', '7'], some ['x']] [nm 0 0 5, sh 1 0 0, sh 2 0 1, nm 3 0 3] =
      .ok [.arr ⟨.utf8, [some (.str ['5']), some (.str ['0', '0', '7']), some (.str ['x']), some (.str ['3'])]⟩] :=
  C68_text_changed

end Rxls
