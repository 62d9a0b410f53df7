import Verif.Lemmas.SkipCols
import Verif.Props.OwnColumn
import Verif.Props.ReadFile
import Verif.Spec.Options

/-! # Property C118: `skip_cols` takes columns out of the table -/

namespace Rxls

theorem items_hasValue (styles : List (Str × Nat)) (isNull : Str → Bool) (cols : List Int) (r : XRow) :
    (r.items styles isNull cols).isEmpty = !r.hasValue isNull cols := by
  unfold XRow.items XRow.hasValue
  obtain ⟨a, cells⟩ := r
  simp only
  induction cells with
  | nil => rfl
  | cons c cells ih =>
    rw [List.flatMap_cons, List.any_cons]
    have : (c.items styles isNull cols ++ cells.flatMap (XCell.items styles isNull cols)).isEmpty =
        ((c.items styles isNull cols).isEmpty && (cells.flatMap (XCell.items styles isNull cols)).isEmpty) := by
      cases c.items styles isNull cols <;> simp
    rw [this, ih, Bool.not_or]
    congr 1
    unfold XCell.items
    rw [List.isEmpty_map, List.filter_map, List.isEmpty_map]
    generalize valueTexts tagC c.body = l
    induction l with
    | nil => simp
    | cons t l ih' =>
      simp only [List.filter_cons, Function.comp_apply, List.any_cons]
      by_cases h : pyStrip t ≠ [] ∧ isNull (pyStrip t) = false ∧ c.col ∉ cols
      · simp [h]
      · simp only [h, decide_false, Bool.false_eq_true, if_false]
        rw [show (fun t => decide (t ≠ [] ∧ isNull t = false ∧ c.col ∉ cols)) ∘ pyStrip =
          (fun t => decide (t ≠ [] ∧ isNull t = false ∧ c.col ∉ cols)) ∘ pyStrip from rfl] at ih'
        rw [ih']
        by_cases hc : c.col ∈ cols
        · simp [hc]
        · have : (decide (pyStrip t ≠ []) && !isNull (pyStrip t)) = false := by
            by_contra hx
            simp only [Bool.not_eq_false, Bool.and_eq_true, decide_eq_true_eq, Bool.not_eq_true'] at hx
            exact h ⟨hx.1, hx.2, hc⟩
          rw [this, Bool.false_or]

theorem rowsBefore_leading (styles : List (Str × Nat)) (isNull : Str → Bool) (cols : List Int) (k : Nat) (s : XSheet) :
    leadingEmpty ((s.rows.map (XRow.items styles isNull cols)).drop k) = s.rowsBefore isNull cols k := by
  unfold leadingEmpty XSheet.rowsBefore
  rw [← List.map_drop, List.takeWhile_map, List.length_map]
  congr 2
  funext r
  exact items_hasValue styles isNull cols r

/-- C118, cells of XLSX: the cells delivered are those of the columns that are left, whatever the row arguments. -/
theorem C118_xlsx_cells (styles : List (Str × Nat)) (isNull : Str → Bool) (k t : Nat) (keep : Bool) (cols : List Int)
    (bad : Bool) (s : XSheet) (hs : s.Ok) (hf : s.FirstStays isNull cols k) :
    evCells (xlsxSheet styles isNull ⟨k, t, keep, cols⟩ ⟨s.events, bad⟩).1 =
      (evCells (xlsxSheet styles isNull ⟨k, t, keep, []⟩ ⟨s.events, bad⟩).1).filter fun c => !cols.contains c.col := by
  rw [sheet_rows s hs, sheet_rows s hs]
  simp only [evCells_callback]
  have hL : s.rows.map (XRow.items styles isNull cols) = (s.rows.map (XRow.items styles isNull [])).map (keptItems cols) := by
    rw [List.map_map]
    exact List.map_congr_left fun r _ => items_skip cols r
  rw [hL]
  apply runRowsX_cols
  intro _
  unfold StillOk
  have h := hf
  unfold XSheet.FirstStays at h
  rw [← rowsBefore_leading styles, ← rowsBefore_leading styles, hL] at h
  split
  · simpa using h
  · intro hk
    have : k = 0 := by omega
    subst this
    simpa using h

theorem evCells_cell? (evs : List Ev) : evs.filterMap Ev.cell? = evCells evs := by
  unfold evCells
  congr 1

/-- C118 for XLSX.  A file that is read is read with `skip_cols` too, and the columns left are the same, if the first row
with a value keeps one, some cell is left, and the table keeps its height.  With one header row the names are the same
too.  For other header heights the names are missing (they may change, `C99_names_finding`). -/
theorem C118_xlsx_partial {A D : Type} (env : Env) (lib : Lib A D) (search : Str → Option (Str → Bool))
    (reMatch : Str → Str → Py Bool) (toInt : Str → Option Int) (a : FileArgs D) (p : Package) (hp : workbookXml ∈ p.names)
    (n : Int) (ha : PlainArgs a.table n) (h0 : a.iter.skipCols = []) (cols : List Int)
    (hs : ∀ name doc, p.xlsx.parts name = some doc → ∃ (s : XSheet) (bad : Bool), s.Ok ∧ doc = ⟨s.events, bad⟩ ∧
      s.FirstStays (skipPredicate errorStringsXlsx a.nulls) cols a.iter.skipRows.toNat)
    (hne : ∃ c ∈ p.cellsOf toInt a, c.col ∉ cols)
    (hm : maxSpan ((p.cellsOf toInt a).filter fun c => !cols.contains c.col) = maxSpan (p.cellsOf toInt a)) (t : Table A)
    (h : readFile env lib search reMatch toInt a p = .ok t) :
    ∃ t', readFile env lib search reMatch toInt { a with iter := { a.iter with skipCols := cols } } p = .ok t' ∧
      t'.arrays = atKept (fun k => !cols.contains k) (columnsOf (p.cellsOf toInt a)) t.arrays ∧
      (n = 1 → t'.names = atKept (fun k => !cols.contains k) (columnsOf (p.cellsOf toInt a)) t.names) := by
  have hk : fileKind p.names = .ok .xlsx := by simp [fileKind, hp]
  unfold readFile at h ⊢
  unfold Package.cellsOf at hne hm ⊢
  simp only [hk] at h hne hm ⊢
  unfold readXlsx at h ⊢
  unfold XlsxFile.cellsOf at hne hm ⊢
  cases h1 : xlsxSheets p.xlsx.rels p.xlsx.workbook with
  | error e => rw [h1] at h; cases h
  | ok sheets =>
    simp only [h1] at h hne hm ⊢
    cases h2 : selectSheet sheets a.iter.sheet with
    | error e => rw [h2] at h; cases h
    | ok path =>
      simp only [h2] at h hne hm ⊢
      cases h3 : checkRows a.iter.skipRows a.iter.takeRows with
      | error e => rw [h3] at h; cases h
      | ok st =>
        obtain ⟨k, tk⟩ := st
        obtain ⟨rfl, rfl⟩ : k = a.iter.skipRows.toNat ∧ tk = a.iter.takeRows.toNat := by
          unfold checkRows at h3
          split at h3
          · cases h3
          split at h3
          · cases h3
          · simp only [Except.ok.injEq, Prod.mk.injEq] at h3
            exact ⟨h3.1.symm, h3.2.symm⟩
        simp only [h3] at h ⊢
        cases h4 : p.xlsx.parts path with
        | none => rw [h4] at h; cases h
        | some doc =>
          obtain ⟨s, bad, hok, rfl, hf⟩ := hs _ _ h4
          simp only [h4, openPart] at h hne hm ⊢
          cases h5 : p.xlsx.formats toInt with
          | error e => rw [h5] at h; cases h
          | ok styles =>
            simp only [h5, evCells_cell?, h0] at h hne hm ⊢
            rw [C118_xlsx_cells styles _ _ _ _ cols bad s hok hf]
            generalize evCells (xlsxSheet styles (skipPredicate errorStringsXlsx a.nulls)
              ⟨a.iter.skipRows.toNat, a.iter.takeRows.toNat, a.iter.keepEmpty, []⟩ ⟨s.events, bad⟩).1 = cells at *
            obtain ⟨c, hc, hcc⟩ := hne
            have he : (cells.filter fun c => !cols.contains c.col).isEmpty = false := by
              have : c ∈ cells.filter fun c => !cols.contains c.col := List.mem_filter.2 ⟨hc, by simp [hcc]⟩
              cases hx : cells.filter fun c => !cols.contains c.col with
              | nil => rw [hx] at this; cases this
              | cons _ _ => rfl
            have he' : cells.isEmpty = false := by
              cases cells with
              | nil => cases hc
              | cons _ _ => rfl
            simp only [he, he', Bool.false_eq_true, if_false] at h ⊢
            cases h6 : p.xlsx.strings (skipPredicate errorStringsXlsx a.nulls) with
            | error e => rw [h6] at h; cases h
            | ok q =>
              obtain ⟨shared, nulls⟩ := q
              simp only [h6] at h ⊢
              exact C99_left_out_partial env false shared _ lib search reMatch a.table n ha cells
                (fun k => !cols.contains k) ⟨c, hc, by simp [hcc]⟩ hm t h

/-- C118, cells of XLSB: the same, if empty rows are counted or no row loses its last value. -/
theorem C118_xlsb_cells (styles : List Bytes) (isNull : Str → Bool) (nulls : List Bytes) (k t : Nat) (keep : Bool)
    (cols : List Int) (s : SheetParts) (hs : s.Ok) (hq : k = 0 ∨ ∀ r ∈ s.tail, r.recId ≠ 0) (L : List (List Item))
    (hL : sheetItems (xlsbCell styles isNull nulls []) s.rows = .ok L) (hk : keep = true ∨ RowsStay cols L) :
    ∃ evs evs', iterXlsb styles isNull (fun _ => nulls) ⟨k, t, keep, []⟩ s.records {} = .ok evs ∧
      iterXlsb styles isNull (fun _ => nulls) ⟨k, t, keep, cols⟩ s.records {} = .ok evs' ∧
      evCells evs' = (evCells evs).filter fun c => !cols.contains c.col := by
  rw [iter_parts s hs hq, iter_parts s hs hq]
  exact runRows_cols styles isNull nulls k t keep cols _ s.rows L (-1) false hL hk

/-- C118 for XLSB, under the same conditions, when no shared string is null (otherwise the first cell delivered is treated
differently, `C48_first_cell_escapes`). -/
theorem C118_xlsb_partial {A D : Type} (env : Env) (lib : Lib A D) (search : Str → Option (Str → Bool))
    (reMatch : Str → Str → Py Bool) (toInt : Str → Option Int) (a : FileArgs D) (p : Package) (hp : workbookXml ∉ p.names)
    (n : Int) (ha : PlainArgs a.table n) (h0 : a.iter.skipCols = []) (cols : List Int)
    (hs : ∀ name b, p.xlsb.parts name = some b → ∃ s : SheetParts, s.Ok ∧ scanBiff (some sheetIds) b = s.records ∧
      (∀ r ∈ s.tail, r.recId ≠ 0) ∧
      ∀ styles, ∃ L, sheetItems (xlsbCell styles (skipPredicate errorStringsXlsb a.nulls) [] []) s.rows = .ok L ∧
        (a.iter.keepEmpty = true ∨ RowsStay cols L))
    (hnull : ∀ ys ks, p.xlsb.strings (skipPredicate errorStringsXlsb a.nulls) = .ok (ys, ks) → ks = [])
    (hne : ∃ c ∈ p.cellsOf toInt a, c.col ∉ cols)
    (hm : maxSpan ((p.cellsOf toInt a).filter fun c => !cols.contains c.col) = maxSpan (p.cellsOf toInt a)) (t : Table A)
    (h : readFile env lib search reMatch toInt a p = .ok t) :
    ∃ t', readFile env lib search reMatch toInt { a with iter := { a.iter with skipCols := cols } } p = .ok t' ∧
      t'.arrays = atKept (fun k => !cols.contains k) (columnsOf (p.cellsOf toInt a)) t.arrays ∧
      (n = 1 → t'.names = atKept (fun k => !cols.contains k) (columnsOf (p.cellsOf toInt a)) t.names) := by
  unfold readFile at h ⊢
  unfold Package.cellsOf at hne hm ⊢
  cases hk : fileKind p.names with
  | error e => rw [hk] at h; cases h
  | ok kind =>
    cases kind with
    | xlsx => exact absurd hk (by simp only [fileKind, List.contains_eq_mem]; grind)
    | xlsb =>
      simp only [hk] at h hne hm ⊢
      unfold readXlsb at h ⊢
      unfold XlsbFile.cellsOf at hne hm ⊢
      cases h1 : xlsbSheets p.xlsb.rels p.xlsb.workbook with
      | error e => rw [h1] at h; cases h
      | ok sheets =>
        simp only [h1] at h hne hm ⊢
        cases h2 : selectSheet sheets a.iter.sheet with
        | error e => rw [h2] at h; cases h
        | ok path =>
          simp only [h2] at h hne hm ⊢
          cases h3 : checkRows a.iter.skipRows a.iter.takeRows with
          | error e => rw [h3] at h; cases h
          | ok st =>
            obtain ⟨k, tk⟩ := st
            obtain ⟨rfl, rfl⟩ : k = a.iter.skipRows.toNat ∧ tk = a.iter.takeRows.toNat := by
              unfold checkRows at h3
              split at h3
              · cases h3
              split at h3
              · cases h3
              · simp only [Except.ok.injEq, Prod.mk.injEq] at h3
                exact ⟨h3.1.symm, h3.2.symm⟩
            simp only [h3] at h ⊢
            cases h4 : p.xlsb.parts path with
            | none => rw [h4] at h; cases h
            | some b =>
              obtain ⟨s, hok, hscan, htail, hL⟩ := hs _ _ h4
              simp only [h4, openPart] at h hne hm ⊢
              cases h5 : p.xlsb.temporal with
              | error e => rw [h5] at h; cases h
              | ok styles =>
                simp only [h5] at h hne hm ⊢
                cases h6 : p.xlsb.strings (skipPredicate errorStringsXlsb a.nulls) with
                | error e => rw [h6] at h; cases h
                | ok q =>
                  obtain ⟨shared, nulls⟩ := q
                  obtain rfl := hnull _ _ h6
                  obtain ⟨L, hL1, hL2⟩ := hL styles
                  obtain ⟨evs, evs', e1, e2, e3⟩ := C118_xlsb_cells styles _ [] a.iter.skipRows.toNat a.iter.takeRows.toNat
                    a.iter.keepEmpty cols s hok (.inr htail) L hL1 hL2
                  have hN : (fun seen : Bool => if seen = true then ([] : List Bytes) else []) = fun _ => [] := by
                    funext seen; cases seen <;> rfl
                  simp only [h6, h0, xlsbSheet, hscan, hN, e1, e2, evCells_cell?] at h hne hm ⊢
                  rw [e3]
                  generalize evCells evs = cells at *
                  obtain ⟨c, hc, hcc⟩ := hne
                  exact C99_left_out_partial env true shared _ lib search reMatch a.table n ha cells
                    (fun k => !cols.contains k) ⟨c, hc, by simp [hcc]⟩ hm t h

/-- What `read` gives for the example file in both formats with columns left out. -/
def exSkipCols (xml : Bool) (cols : List Int) : Py (List Fetched) :=
  (readFile demoEnv exLib (fun _ => none) (fun _ _ => .ok false) exInt { iter := { skipCols := cols } }
      ⟨[if xml then workbookXml else workbookBin], exXlsxFile, exFile⟩).map (·.arrays)

example : exSkipCols true [1] =
    .ok [.arr ⟨.utf8, [some (.str ['y', 'z']), none, some (.str ['-']), some (.str ['1'])]⟩,
      .arr ⟨.utf8, [some (.str ['q']), none, none, some (.str ['x'])]⟩] ∧
    exTSheet.rowsBefore (fun _ => false) [1] 0 = exTSheet.rowsBefore (fun _ => false) [] 0 := by
  decide +kernel

/-- Finding, XLSB with the default `take_rows_non_empty`: leaving out the first column makes the table shorter, as a row
with a value in that column only is dropped with it; the rows of tables read with different `skip_cols` do not match. -/
theorem C118_xlsb_finding :
    exSkipCols false [] =
      .ok [.arr ⟨.utf8, [some (.str ['y', 'z']), some (.str ['-']), some (.str ['1'])]⟩,
        .arr ⟨.ts, [none, none, some (.ts 1704067200000)]⟩,
        .arr ⟨.utf8, [some (.str ['q']), none, some (.str ['x'])]⟩] ∧
    exSkipCols false [0] =
      .ok [.arr ⟨.ts, [none, some (.ts 1704067200000)]⟩, .arr ⟨.utf8, [some (.str ['q']), some (.str ['x'])]⟩] := by
  decide +kernel

/-- A sheet with a title in its first column: `title`, `k | v`, `a | b`. -/
def exTitled : XSheet :=
  let cell (ref s : Str) : XCell := ⟨[(attR, ref)], [.start tagV [], .text s, .close tagV]⟩
  ⟨[], [⟨[], [cell ['A', '1'] ['t']]⟩, ⟨[], [cell ['A', '2'] ['k'], cell ['B', '2'] ['v']]⟩,
    ⟨[], [cell ['A', '3'] ['a'], cell ['B', '3'] ['b']]⟩], []⟩

/-- What `read` gives for it with one row of headers. -/
def exTitledRead (keep : Bool) (cols : List Int) : Py (List Str × List Fetched) :=
  let doc : XmlDoc := ⟨exTitled.events, false⟩
  (readFile demoEnv exLib (fun _ => none) (fun _ _ => .ok false) exInt
      { iter := { skipCols := cols, keepEmpty := keep }, table := { header := .rows 1 } }
      ⟨[workbookXml], { exXlsxFile with parts := fun _ => some doc }, exFile⟩).map fun t => (t.names, t.arrays)

/-- Finding, XLSX: leaving out the column of the title changes the names of the other column, as the first row is dropped
with its only value; and with `take_rows_non_empty=True` the last row of the table is lost. -/
theorem C118_title_finding :
    exTitledRead false [] = .ok ([['t'], "Unnamed".toList],
      [.arr ⟨.utf8, [some (.str ['k']), some (.str ['a'])]⟩, .arr ⟨.utf8, [some (.str ['v']), some (.str ['b'])]⟩]) ∧
    exTitledRead false [0] = .ok ([['v']], [.arr ⟨.utf8, [some (.str ['b'])]⟩]) ∧
    exTitledRead true [0] = .ok (["Unnamed".toList], [.arr ⟨.utf8, [some (.str ['v'])]⟩]) := by
  decide +kernel

end Rxls
