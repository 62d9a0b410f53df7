import Verif.Lemmas.Delivered

/-! # Properties C63 to C67: from the parts of a file to a table, both formats, all arguments -/

namespace Rxls

/-- Both hold: the values, without some columns, in the rows that the format gives. -/
def VGrid.shownXlsx (k t : Nat) (keep : Bool) (cols : List Int) (V : VGrid) : VGrid :=
  xlsxRows k t keep (V.without cols)
@[inherit_doc VGrid.shownXlsx] def VGrid.shownXlsb (k t : Nat) (keep : Bool) (cols : List Int) (V : VGrid) : VGrid :=
  xlsbRows k t keep (V.without cols)

/-! ## C63 -/

/-- C63.  Reading an XLSX file whose parts hold a grid, with any arguments: an exception if no value is in the rows
and columns asked for, else the table of these values. -/
theorem C63_xlsx_to_table {A D : Type} (env : Env) (lib : Lib A D) (search : Str → Option (Str → Bool))
    (reMatch : Str → Str → Py Bool) (toInt : Str → Option Int) (isNull : Str → Bool) (o : ConcatOpts)
    (k t : Nat) (keep : Bool) (cols : List Int) (sheet : SheetArg)
    (args : ReadArgs D) (ha : args.Sensible) (f : XlsxFile) (formats : List StyleClass) (shared : List Str) (g : TGrid)
    (h : f.Holds env toInt sheet isNull formats shared g) (V : VGrid)
    (hV : V = (g.values env isNull formats shared).shownXlsx k t keep cols)
    (hres : V.Resolvable env o g.inline) (hdata : V.flatten ≠ [] → V.HasData env search args o) :
    readXlsx env lib search reMatch toInt isNull o
        { sheet := sheet, skipRows := k, takeRows := t, keepEmpty := keep, skipCols := cols } args f =
      if V.flatten = [] then .error .valueError else V.table env lib search reMatch args o := by
  obtain ⟨sheets, path, s, e1, e2, e3, e4, hpre, hpost⟩ := h.path
  obtain ⟨es, t1, t2, t3, t4, t5⟩ := h.styles
  obtain ⟨pre, post, items, s1, s2, s3, s4, s5⟩ := h.sst
  obtain ⟨styles, hst, hcls⟩ := C50_classification toInt es t2 t3 t4
  have hs : ∀ i < formats.length,
      (styles.find? fun p => p.1 = pyStr i).map (·.2) = (formats.getD i .other).tag := by
    intro i hi
    rw [t5, List.length_map] at hi
    have hy : (cellFmts es)[i]? = some (cellFmts es)[i] := List.getElem?_eq_getElem hi
    obtain ⟨n, hn⟩ := Option.isSome_iff_exists.mp (t4 _ (List.getElem_mem hi))
    rw [hcls i _ n hy hn, t5]
    simp [hi, hn]
  obtain ⟨entries, nulls, hsh, hen, _⟩ := C46_xlsx_aligned isNull pre post items s2 s3 s4
  rw [hen, s5] at hsh
  have hm := grid_means hs g h.fits
  have hrows : s.rows.map (XRow.items styles isNull []) =
      g.map fun row => (row.map TCell.xml).flatMap (XCell.items styles isNull []) := by
    have : s.rows.map (XRow.items styles isNull []) =
        (s.rows.map (·.cells)).map fun cs => cs.flatMap (XCell.items styles isNull []) := by
      rw [List.map_map]; rfl
    rw [this, e4, List.map_map]
    rfl
  have hok : s.Ok := by
    have hmem : ∀ r ∈ s.rows, ∀ c ∈ r.cells, ∃ row ∈ g, ∃ d ∈ row, d.xml = c := by
      intro r hr c hc
      have : r.cells ∈ g.map (List.map TCell.xml) := by rw [← e4]; exact List.mem_map_of_mem hr
      obtain ⟨row, hrow, e⟩ := List.mem_map.mp this
      rw [← e] at hc
      obtain ⟨d, hd, rfl⟩ := List.mem_map.mp hc
      exact ⟨row, hrow, d, hd, rfl⟩
    refine ⟨hpre, hpost, ?_, ?_⟩
    · intro r hr c hc e he
      obtain ⟨row, hrow, d, hd, rfl⟩ := hmem r hr c hc
      simp only [TCell.xml, List.mem_append, List.mem_cons, List.not_mem_nil, or_false] at he
      rcases he with he | rfl | rfl | rfl
      · exact ((h.fits row hrow d hd).before e he).1
      · exact ⟨by decide, by decide⟩
      · trivial
      · exact ⟨by decide, by decide⟩
    · intro r hr c hc
      obtain ⟨row, hrow, d, hd, rfl⟩ := hmem r hr c hc
      rw [TCell.xml]
      simp only
      rw [attrs_ref]
      rfl
  have hdel := xlsx_delivers styles isNull k t keep cols s hok
  have hLV := forall2_xlsxRows (means_without hm cols) k t keep
  rw [hrows] at hdel
  subst hV
  unfold readXlsx
  simp only [e1, e2, checkRows, e3, openPart, XlsxFile.formats, t1, hst, XlsxFile.strings, s1, hsh]
  simp only [show ¬ ((t : Int) < 0) by omega, show ¬ ((k : Int) < 0) by omega, if_false, Int.toNat_natCast]
  rw [show (xlsxSheet styles isNull ⟨k, t, keep, cols⟩ ⟨s.events, false⟩).1.filterMap Ev.cell? =
      evCells (xlsxSheet styles isNull ⟨k, t, keep, cols⟩ ⟨s.events, false⟩).1 from rfl, hdel]
  refine Eq.trans ?_ (readCells_shown hLV o hres lib search reMatch args ha hdata)
  split
  · rename_i h0
    rw [List.isEmpty_iff.mp h0]
    rfl
  · rfl

/-! ### The workbook of C62 stored as XLSX -/

def exDigits (n : Nat) : Bytes := [UInt8.ofNat (48 + n)]

theorem exDigits_ok (n : Nat) (h : n < 10) : IsDigits (exDigits n) := by
  have : ∀ n < 10, (exDigits n).all (fun b => 48 ≤ b.toNat && b.toNat ≤ 57) = true := by decide +kernel
  intro b hb
  have := List.all_eq_true.mp (this n h) b hb
  simpa using this

/-- Cell formats 0 (plain), 1 (date) and 2 (number); shared strings `x`, `yz`. -/
def exTGrid : TGrid :=
  [[⟨0, exDigits 1, none, .shared 1, [], []⟩,
      ⟨2, exDigits 1, none, .plain ['q'], [], [.start ['f'] [], .text ['A', '1'], .close ['f']]⟩],
    [],
    [⟨0, exDigits 3, none, .plain ['-'], [], []⟩],
    [⟨0, exDigits 4, some 2, .plain ['1'], [], []⟩, ⟨1, exDigits 4, some 1, .plain [' ', '4', '5', '2', '9', '2'], [], []⟩,
      ⟨2, exDigits 4, some 0, .shared 0, [(['c', 'm'], ['1'])], []⟩]]

def exTSheet : XSheet :=
  ⟨[.start ['w'] [], .start ['d'] []], exTGrid.map fun row => ⟨[], row.map TCell.xml⟩, [.close ['d'], .close ['w']]⟩

def exXf (id : Str) : Xml := .start tagXf [(attNumFmtId, id), (attXfId, ['0'])]

def exTStyles : List Xml :=
  [.start ['s'] [], exXf ['0'], .close tagXf, exXf ['1', '4'], .close tagXf, exXf ['2'], .close tagXf, .close ['s']]

def exXlsxFile : XlsxFile where
  rels := [⟨['r', '1'], worksheetType, ['s', '1']⟩]
  workbook := ⟨[.start tagSheet [(attName, ['A']), (attRId, ['r', '1'])], .close tagSheet], false⟩
  shared := some ⟨.start ['t'] [] :: ([exSi [['x']], exSi [['y', 'z', ' ']]].flatMap Si.events ++ [.close ['t']]), false⟩
  styles := some ⟨exTStyles, false⟩
  parts := fun n => if n = ['x', 'l', '/', 's', '1'] then some ⟨exTSheet.events, false⟩ else none

theorem exXlsxFile_holds : exXlsxFile.Holds demoEnv exInt (.index 0) (fun s => s == ['-'])
    [.other, .temporal, .numeric] [['x'], ['y', 'z']] exTGrid := by
  refine ⟨⟨[(['A'], ['x', 'l', '/', 's', '1'])], ['x', 'l', '/', 's', '1'], exTSheet, by decide +kernel, by decide +kernel, by decide +kernel,
    ?_, ?_, ?_⟩, ⟨exTStyles, rfl, ?_, by decide +kernel, by decide +kernel, by decide +kernel⟩,
    ⟨[.start ['t'] []], [.close ['t']], [exSi [['x']], exSi [['y', 'z', ' ']]], rfl, ?_, ?_, ?_, by decide +kernel⟩, ?_⟩
  · simp [exTSheet]
  · simp [exTSheet, Xml.plain, tagC, tagRow]
  · simp [exTSheet, Xml.plain, tagC, tagRow]
  · intro t a hm
    simp only [exTStyles, exXf, List.mem_cons, List.not_mem_nil, or_false, Xml.start.injEq, reduceCtorEq, false_or] at hm
    rcases hm with ⟨h1, h2⟩ | ⟨h1, h2⟩ | ⟨h1, h2⟩ | ⟨h1, h2⟩ <;> rw [h1, h2] <;> decide +kernel
  · simp [Xml.noSi, tagSi]
  · simp [Xml.noSi, tagSi]
  · intro x hx e he
    simp only [List.mem_cons, List.not_mem_nil, or_false] at hx
    rcases hx with rfl | rfl <;> simp [exSi] at he <;> rcases he with h | h | h <;> subst_vars <;> simp [Xml.noSi, tagSi]
  · intro row hrow c hc
    simp only [exTGrid, List.mem_cons, List.not_mem_nil, or_false] at hrow
    rcases hrow with rfl | rfl | rfl | rfl <;> simp only [List.mem_cons, List.not_mem_nil, or_false] at hc
    · rcases hc with rfl | rfl
      · refine ⟨exDigits_ok _ (by decide), by decide, by simp, by simp, ?_, by decide +kernel⟩
        intro i hi
        cases hi
        decide +kernel
      · refine ⟨exDigits_ok _ (by decide), by decide, by simp, ?_, by simp, by decide +kernel⟩
        simp [Xml.plain, tagC, tagRow, tagV]
    · subst hc
      exact ⟨exDigits_ok _ (by decide), by decide, by simp, by simp, by simp, by decide +kernel⟩
    · rcases hc with rfl | rfl | rfl
      · exact ⟨exDigits_ok _ (by decide), by decide, by simp, by simp, by simp, by decide +kernel⟩
      · exact ⟨exDigits_ok _ (by decide), by decide, by simp, by simp, by simp, by decide +kernel⟩
      · refine ⟨exDigits_ok _ (by decide), by decide, by simp [attR, attT, attS], by simp, ?_, by decide +kernel⟩
        intro i hi
        cases hi
        decide +kernel

/-- Reading the example files. -/
def exReadX (ia : IterArgs) : Py (List Fetched) :=
  (readXlsx demoEnv exLib (fun _ => none) (fun _ _ => .ok false) exInt (fun s => s == ['-']) exConcat ia {} exXlsxFile).map
    (·.arrays)
@[inherit_doc exReadX] def exReadB (ia : IterArgs) : Py (List Fetched) :=
  (readXlsb demoEnv exLib (fun _ => none) (fun _ _ => .ok false) (fun s => s == ['-']) exConcat ia {} exFile).map
    (·.arrays)

example : exReadX {} =
    .ok [.arr ⟨.utf8, [some (.str ['y', 'z']), none, none, some (.str ['1'])]⟩,
      .arr ⟨.ts, [none, none, none, some (.ts 1704067200000)]⟩,
      .arr ⟨.utf8, [some (.str ['q']), none, none, some (.str ['x'])]⟩] ∧
    exReadX { takeRows := 1, skipCols := [2] } = .ok [.arr ⟨.utf8, [some (.str ['y', 'z'])]⟩] ∧
    exReadX { skipCols := [0, 1, 2] } = .error .valueError := by
  decide +kernel

/-! ## C64 -/

/-- C64.  The same for an XLSB file. -/
theorem C64_xlsb_to_table {A D : Type} (env : Env) (lib : Lib A D) (search : Str → Option (Str → Bool))
    (reMatch : Str → Str → Py Bool) (isNull : Str → Bool) (o : ConcatOpts) (k t : Nat) (keep : Bool) (cols : List Int) (sheet : SheetArg) (args : ReadArgs D)
    (ha : args.Sensible) (f : XlsbFile) (temporal : List Bytes) (shared : List Str) (g : Grid)
    (h : f.Holds sheet isNull temporal shared g) (V : VGrid)
    (hV : V = (g.values temporal shared isNull).shownXlsb k t keep cols)
    (hres : V.Resolvable env o g.inline) (hdata : V.flatten ≠ [] → V.HasData env search args o) :
    readXlsb env lib search reMatch isNull o
        { sheet := sheet, skipRows := k, takeRows := t, keepEmpty := keep, skipCols := cols } args f =
      if V.flatten = [] then .error .valueError else V.table env lib search reMatch args o := by
  obtain ⟨sheets, path, part, rs, hdrs, tail, e1, e2, e3, e4, e5, e6, e7⟩ := h.path
  have hst := h.temporal_eq
  have hsh := h.strings_eq
  have hscan := scan_part e4 e5
  obtain ⟨evs, hit, hcells⟩ := xlsb_delivers temporal isNull [] k t keep cols (g.parts hdrs tail) (h.parts_ok hdrs e6)
    (.inr e7) _ (sheetItems_grid temporal isNull shared.length hdrs g 0 h.fits)
  have hm : List.Forall₂ (List.Forall₂ (MeansIn env true (shared.map some) g.inline))
      (g.map fun row => (row.filter fun c => !c.blank isNull).map fun c =>
        ((c.col : Int), c.content.tag (temporal.contains c.style), c.content.raw)) (g.values temporal shared isNull) := by
    unfold Grid.values
    rw [List.forall₂_map_left_iff, List.forall₂_map_right_iff, List.forall₂_same]
    intro row hrow
    rw [List.forall₂_map_left_iff, List.forall₂_map_right_iff, List.forall₂_same]
    intro c hc
    refine ⟨⟨rfl, GCell.rawValue_eq env temporal shared c (h.fits row hrow c (List.mem_filter.mp hc).1)⟩, fun hk => ?_⟩
    exact g.inline_tag temporal hk hrow (List.mem_filter.mp hc).1
  have hLV := forall2_xlsbRows (means_without hm cols) k t keep
  subst hV
  have hxs : xlsbSheet temporal isNull (fun seen => if seen then [] else []) ⟨k, t, keep, cols⟩ part = .ok evs := by
    unfold xlsbSheet
    rw [hscan, ← g.parts_records, show (fun seen : Bool => if seen = true then ([] : List Bytes) else []) = fun _ => []
      from by funext seen; split <;> rfl]
    exact hit
  unfold readXlsb
  simp only [e1, e2, checkRows, e3, openPart, hst, hsh]
  simp only [show ¬ ((t : Int) < 0) by omega, show ¬ ((k : Int) < 0) by omega, if_false, Int.toNat_natCast, hxs]
  rw [show evs.filterMap Ev.cell? = evCells evs from by unfold evCells; rfl, hcells]
  exact readCells_shown hLV o hres lib search reMatch args ha hdata

example : exReadB { takeRows := 1, skipCols := [2] } =
      .ok [.arr ⟨.utf8, [some (.str ['y', 'z']), some (.str ['1'])]⟩, .arr ⟨.ts, [none, some (.ts 1704067200000)]⟩] ∧
    exReadB { skipRows := 1, keepEmpty := true, skipCols := [0, 2] } = .error .valueError := by
  decide +kernel

/-! ## C65 -/

/-- C65, partial.  A sheet with the same values stored in both formats gives the same table, or the same exception, if
no row of the columns asked for is empty, or empty rows are counted and the first row is not empty.  Missing: the other
cases and `skip_rows`, where the formats differ (`C65_disagree`). -/
theorem C65_formats_agree_partial {A D : Type} (env : Env) (lib : Lib A D) (search : Str → Option (Str → Bool))
    (reMatch : Str → Str → Py Bool) (toInt : Str → Option Int) (isNull : Str → Bool) (o : ConcatOpts)
    (t : Nat) (keep : Bool) (cols : List Int) (sheet : SheetArg)
    (args : ReadArgs D) (ha : args.Sensible)
    (fx : XlsxFile) (formats : List StyleClass) (sharedx : List Str) (gx : TGrid)
    (hx : fx.Holds env toInt sheet isNull formats sharedx gx)
    (fb : XlsbFile) (temporal : List Bytes) (sharedb : List Str) (gb : Grid)
    (hb : fb.Holds sheet isNull temporal sharedb gb)
    (hv : gx.values env isNull formats sharedx = gb.values temporal sharedb isNull)
    (hrows : [] ∉ (gb.values temporal sharedb isNull).without cols ∨
      keep = true ∧ ((gb.values temporal sharedb isNull).without cols).head? ≠ some [])
    (V : VGrid) (hV : V = (gb.values temporal sharedb isNull).shownXlsb 0 t keep cols)
    (hres : V.Resolvable env o fun k => gx.inline k && gb.inline k) (hdata : V.flatten ≠ [] → V.HasData env search args o) :
    readXlsx env lib search reMatch toInt isNull o
        { sheet := sheet, takeRows := t, keepEmpty := keep, skipCols := cols } args fx =
      readXlsb env lib search reMatch isNull o
        { sheet := sheet, takeRows := t, keepEmpty := keep, skipCols := cols } args fb := by
  subst hV
  have hsame : (gx.values env isNull formats sharedx).shownXlsx 0 t keep cols =
      (gb.values temporal sharedb isNull).shownXlsb 0 t keep cols := by
    rw [hv]
    unfold VGrid.shownXlsx VGrid.shownXlsb
    generalize (gb.values temporal sharedb isNull).without cols = W at hrows
    have hhead : W.head? ≠ some [] := by
      rcases hrows with h | h
      · intro h0
        exact h (List.mem_of_mem_head? h0)
      · exact h.2
    have h0 : W.takeWhile List.isEmpty = [] := by
      cases W with
      | nil => rfl
      | cons r W =>
        cases r with
        | nil => simp at hhead
        | cons => rfl
    have h1 : W.dropWhile List.isEmpty = W := by
      cases W with
      | nil => rfl
      | cons r W =>
        cases r with
        | nil => simp at hhead
        | cons => rfl
    cases keep with
    | true => simp [xlsxRows, xlsbRows, h0]
    | false =>
      have h2 : W.filter (· ≠ []) = W := by
        rw [List.filter_eq_self]
        intro r hr
        rcases hrows with h | h
        · simp only [ne_eq, decide_not, Bool.not_eq_eq_eq_not, Bool.not_true, decide_eq_false_iff_not]
          rintro rfl
          exact h hr
        · simp at h
      simp only [xlsxRows, xlsbRows, h1, h2, Bool.false_eq_true, if_false]
  have e1 := C63_xlsx_to_table env lib search reMatch toInt isNull o 0 t keep cols sheet args ha fx formats sharedx
    gx hx _ rfl (by rw [hsame]; exact fun k => (hres k).mono fun h => (Bool.and_eq_true _ _ ▸ h).1) (by rw [hsame]; exact hdata)
  have e2 := C64_xlsb_to_table env lib search reMatch isNull o 0 t keep cols sheet args ha fb temporal sharedb
    gb hb _ rfl (fun k => (hres k).mono fun h => (Bool.and_eq_true _ _ ▸ h).2) hdata
  rw [hsame] at e1
  exact e1.trans e2.symm

example : exTGrid.values demoEnv (fun s => s == ['-']) [.other, .temporal, .numeric] [['x'], ['y', 'z']] =
      exGrid.values [[1, 0, 0]] [['x'], ['y', 'z']] (fun s => s == ['-']) ∧
    exReadX { keepEmpty := true } = exReadB { keepEmpty := true } := by
  decide +kernel

/-- C65 fails otherwise.  The same workbook gives four rows as XLSX and two as XLSB with the default arguments; with
one row skipped and one more taken, XLSX gives two rows, one of them below those asked for, and XLSB has no value. -/
theorem C65_disagree :
    exTGrid.values demoEnv (fun s => s == ['-']) [.other, .temporal, .numeric] [['x'], ['y', 'z']] =
      exGrid.values [[1, 0, 0]] [['x'], ['y', 'z']] (fun s => s == ['-']) ∧
    exReadX {} =
      .ok [.arr ⟨.utf8, [some (.str ['y', 'z']), none, none, some (.str ['1'])]⟩,
        .arr ⟨.ts, [none, none, none, some (.ts 1704067200000)]⟩,
        .arr ⟨.utf8, [some (.str ['q']), none, none, some (.str ['x'])]⟩] ∧
    exReadB {} =
      .ok [.arr ⟨.utf8, [some (.str ['y', 'z']), some (.str ['1'])]⟩, .arr ⟨.ts, [none, some (.ts 1704067200000)]⟩,
        .arr ⟨.utf8, [some (.str ['q']), some (.str ['x'])]⟩] ∧
    exReadX { skipRows := 1, takeRows := 1, keepEmpty := true } ≠ .error .valueError ∧
    exReadB { skipRows := 1, takeRows := 1, keepEmpty := true } = .error .valueError := by
  decide +kernel

/-! ## C66 -/

/-- C66 fails.  With the default `take_rows_non_empty=False`, any `skip_rows` above 0 makes reading fail, for every
sheet and all other arguments: no row is delivered (C38). -/
theorem C66_skip_rows_default {A D : Type} (env : Env) (lib : Lib A D) (search : Str → Option (Str → Bool))
    (reMatch : Str → Str → Py Bool) (toInt : Str → Option Int) (isNull : Str → Bool) (o : ConcatOpts)
    (k t : Nat) (hk : 0 < k) (cols : List Int) (sheet : SheetArg)
    (args : ReadArgs D) (ha : args.Sensible) :
    (∀ (f : XlsxFile) (formats : List StyleClass) (shared : List Str) (g : TGrid),
      f.Holds env toInt sheet isNull formats shared g →
      readXlsx env lib search reMatch toInt isNull o
        { sheet := sheet, skipRows := k, takeRows := t, skipCols := cols } args f = .error .valueError) ∧
    (∀ (f : XlsbFile) (temporal : List Bytes) (shared : List Str) (g : Grid),
      f.Holds sheet isNull temporal shared g →
      readXlsb env lib search reMatch isNull o
        { sheet := sheet, skipRows := k, takeRows := t, skipCols := cols } args f = .error .valueError) := by
  constructor
  · intro f formats shared g h
    have e : (g.values env isNull formats shared).shownXlsx k t false cols = [] := by
      simp [VGrid.shownXlsx, xlsxRows, Nat.pos_iff_ne_zero.mp hk]
    exact C63_xlsx_to_table env lib search reMatch toInt isNull o k t false cols sheet args ha f formats shared g h
      [] e.symm (fun _ => .nil env o _) (by simp)
  · intro f temporal shared g h
    have e : (g.values temporal shared isNull).shownXlsb k t false cols = [] := by
      simp [VGrid.shownXlsb, xlsbRows, Nat.pos_iff_ne_zero.mp hk]
    exact C64_xlsb_to_table env lib search reMatch isNull o k t false cols sheet args ha f temporal shared g h
      [] e.symm (fun _ => .nil env o _) (by simp)

example : exReadX { skipRows := 1 } = .error .valueError ∧ exReadB { skipRows := 1 } = .error .valueError := by
  decide +kernel

/-- C66, partial: with `take_rows_non_empty=True` an XLSB sheet gives `take_rows + 1` rows from row `skip_rows` on, and
an XLSX sheet the same rows if there are no more, and row `skip_rows` has a value.  Missing: the default, and longer
XLSX sheets (C38). -/
theorem C66_skip_rows_partial (k t : Nat) (hk : 0 < k) (cols : List Int) (V : VGrid) :
    V.shownXlsb k t true cols = ((V.without cols).drop k).take (t + 1) ∧
    (V.length ≤ k + t + 1 → ((V.without cols).drop k).head? ≠ some [] →
      V.shownXlsx k t true cols = ((V.without cols).drop k).take (t + 1)) := by
  constructor
  · simp [VGrid.shownXlsb, xlsbRows, Nat.pos_iff_ne_zero.mp hk]
  · intro hl hh
    have hl' : ((V.without cols).drop k).length ≤ t + 1 := by
      simp [VGrid.without]
      omega
    simp only [VGrid.shownXlsx, xlsxRows, if_true]
    rw [List.take_of_length_le hl']
    split
    · rfl
    · rw [List.take_of_length_le (by omega)]

example : exReadX { skipRows := 3, takeRows := 1, keepEmpty := true, skipCols := [0] } =
      .ok [.arr ⟨.ts, [some (.ts 1704067200000)]⟩, .arr ⟨.utf8, [some (.str ['x'])]⟩] ∧
    exReadX { skipRows := 3, takeRows := 1, keepEmpty := true, skipCols := [0] } =
      exReadB { skipRows := 3, takeRows := 1, keepEmpty := true, skipCols := [0] } := by
  decide +kernel

/-! ## C67 -/

/-- C67 fails.  A file without a shared strings part, or without a styles part, cannot be read (KeyError) although no
cell needs it; both parts are optional in a package. -/
theorem C67_missing_part {A D : Type} (env : Env) (lib : Lib A D) (search : Str → Option (Str → Bool))
    (reMatch : Str → Str → Py Bool) (toInt : Str → Option Int) (isNull : Str → Bool) (o : ConcatOpts) (ia : IterArgs)
    (args : ReadArgs D) :
    (∀ (f : XlsxFile) tbl, readXlsx env lib search reMatch toInt isNull o ia args f = .ok tbl →
      f.shared.isSome ∧ f.styles.isSome) ∧
    (∀ (f : XlsbFile) tbl, readXlsb env lib search reMatch isNull o ia args f = .ok tbl →
      f.shared.isSome ∧ f.styles.isSome) := by
  constructor
  · intro f tbl h
    unfold readXlsx at h
    split at h <;> try cases h
    split at h <;> try cases h
    split at h <;> try cases h
    split at h <;> try cases h
    split at h <;> try cases h
    rename_i hf
    simp only at h
    split at h <;> try cases h
    split at h <;> try cases h
    rename_i hs
    constructor
    · unfold XlsxFile.strings at hs
      cases hc : f.shared with
      | none => rw [hc] at hs; cases hs
      | some => rfl
    · unfold XlsxFile.formats at hf
      cases hc : f.styles with
      | none => rw [hc] at hf; cases hf
      | some => rfl
  · intro f tbl h
    unfold readXlsb at h
    split at h <;> try cases h
    split at h <;> try cases h
    split at h <;> try cases h
    split at h <;> try cases h
    split at h <;> try cases h
    rename_i hf
    split at h <;> try cases h
    rename_i hs
    constructor
    · unfold XlsbFile.strings at hs
      cases hc : f.shared with
      | none => rw [hc] at hs; cases hs
      | some => rfl
    · unfold XlsbFile.temporal at hf
      cases hc : f.styles with
      | none => rw [hc] at hf; cases hf
      | some => rfl

/-- C67.  The exception is KeyError; here in the example files, from which no cell with a shared string is asked for. -/
theorem C67_missing_part_example :
    (readXlsx demoEnv exLib (fun _ => none) (fun _ _ => .ok false) exInt (fun s => s == ['-']) exConcat
      { skipCols := [0, 2] } {} { exXlsxFile with shared := none }).map (·.arrays) = .error .keyError ∧
    exReadX { skipCols := [0, 2] } = .ok [.arr ⟨.ts, [some (.ts 1704067200000)]⟩] ∧
    (readXlsb demoEnv exLib (fun _ => none) (fun _ _ => .ok false) (fun s => s == ['-']) exConcat
      { skipCols := [0, 2] } {} { exFile with shared := none }).map (·.arrays) = .error .keyError ∧
    exReadB { skipCols := [0, 2] } = .ok [.arr ⟨.ts, [some (.ts 1704067200000)]⟩] := by
  decide +kernel

/-! ## C45 for whole files -/

/-- The worker's exception, if one ended it. -/
def Exit.error? : Exit → Option PyErr
  | .died e => some e
  | _ => none

theorem runXlsx_prefix (styles : List (Str × Nat)) (isNull : Str → Bool) (o : SheetArgs) (bad : Bool) :
    ∀ (evs : List Xml) (st : XlsxState), ∃ pre rest, evs = pre ++ rest ∧
      (runXlsx styles isNull o false pre st).1 = (runXlsx styles isNull o bad evs st).1 ∧
      (runXlsx styles isNull o false pre st).2.error? = none ∧
      ((runXlsx styles isNull o bad evs st).2.error? = none → rest = [])
  | [], st => ⟨[], [], rfl, rfl, rfl, fun _ => rfl⟩
  | .start tag attrs :: es, st => by
    cases h : xlsxStart styles o.skipRows st tag attrs with
    | error e =>
      exact ⟨[], .start tag attrs :: es, rfl, by simp [runXlsx, h], by simp [runXlsx, Exit.error?],
        by simp [runXlsx, h, Exit.error?]⟩
    | ok st' =>
      obtain ⟨pre, rest, h1, h2, h3, h4⟩ := runXlsx_prefix styles isNull o bad es st'
      exact ⟨.start tag attrs :: pre, rest, by simp [h1], by simp [runXlsx, h, h2], by simp [runXlsx, h, h3],
        by simpa [runXlsx, h] using h4⟩
  | .text txt :: es, st => by
    obtain ⟨pre, rest, h1, h2, h3, h4⟩ :=
      runXlsx_prefix styles isNull o bad es (xlsxText isNull o.skipRows o.skipCols st txt).1
    exact ⟨.text txt :: pre, rest, by simp [h1], by simp [runXlsx, h2], by simp [runXlsx, h3],
      by simpa [runXlsx] using h4⟩
  | .close tag :: es, st => by
    by_cases h : (xlsxEnd o.keepEmpty st tag).2.2 = true
    · exact ⟨.close tag :: es, [], by simp, by simp [runXlsx, h], by simp [runXlsx, h, Exit.error?], by simp⟩
    · obtain ⟨pre, rest, h1, h2, h3, h4⟩ :=
        runXlsx_prefix styles isNull o bad es (xlsxEnd o.keepEmpty st tag).1
      exact ⟨.close tag :: pre, rest, by simp [h1], by simp [runXlsx, h, h2], by simp [runXlsx, h, h3],
        by simpa [runXlsx, h] using h4⟩

/-- C45, the outcome in every case: whatever is wrong with a sheet part, `read` returns what it returns for the
well-formed beginning of it that ends before the first event at which a handler raises (or at the syntax error).  So
no read fails because of its sheet part alone, except when it holds no cell. -/
theorem C45_exact {A D : Type} (env : Env) (lib : Lib A D) (search : Str → Option (Str → Bool))
    (reMatch : Str → Str → Py Bool) (toInt : Str → Option Int) (isNull : Str → Bool) (o : ConcatOpts) (ia : IterArgs)
    (args : ReadArgs D) (f : XlsxFile) (styles : List (Str × Nat)) (hs : f.formats toInt = .ok styles)
    (skip take : Nat) (hk : ia.skipRows = skip) (ht : ia.takeRows = take) :
    ∃ parts : Str → Option XmlDoc,
      (∀ path, f.parts path = none → parts path = none) ∧
      (∀ path doc, f.parts path = some doc → ∃ pre rest, parts path = some ⟨pre, false⟩ ∧ doc.events = pre ++ rest ∧
        (xlsxSheet styles isNull ⟨skip, take, ia.keepEmpty, ia.skipCols⟩ ⟨pre, false⟩).2.error? = none ∧
        ((xlsxSheet styles isNull ⟨skip, take, ia.keepEmpty, ia.skipCols⟩ doc).2.error? = none → rest = [])) ∧
      readXlsx env lib search reMatch toInt isNull o ia args f =
        readXlsx env lib search reMatch toInt isNull o ia args { f with parts := parts } := by
  have key : ∀ doc : XmlDoc, ∃ pre rest, doc.events = pre ++ rest ∧
      (xlsxSheet styles isNull ⟨skip, take, ia.keepEmpty, ia.skipCols⟩ ⟨pre, false⟩).1 =
        (xlsxSheet styles isNull ⟨skip, take, ia.keepEmpty, ia.skipCols⟩ doc).1 ∧
      (xlsxSheet styles isNull ⟨skip, take, ia.keepEmpty, ia.skipCols⟩ ⟨pre, false⟩).2.error? = none ∧
      ((xlsxSheet styles isNull ⟨skip, take, ia.keepEmpty, ia.skipCols⟩ doc).2.error? = none → rest = []) := by
    intro doc
    obtain ⟨pre, rest, h1, h2, h3, h4⟩ := runXlsx_prefix styles isNull ⟨skip, take, ia.keepEmpty, ia.skipCols⟩ doc.bad
      doc.events { take := take + skip }
    exact ⟨pre, rest, h1, by simp [xlsxSheet, h2], by simpa [xlsxSheet] using h3, by simpa [xlsxSheet] using h4⟩
  choose pre rest h1 h2 h3 h4 using key
  refine ⟨fun path => (f.parts path).map fun doc => ⟨pre doc, false⟩, ?_, ?_, ?_⟩
  · intro path h
    simp [h]
  · intro path doc h
    exact ⟨pre doc, rest doc, by simp [h], h1 doc, h3 doc, h4 doc⟩
  · have hc : checkRows ia.skipRows ia.takeRows = .ok (skip, take) := by
      rw [hk, ht]; unfold checkRows; rw [if_neg (by omega), if_neg (by omega)]; rfl
    have hs' : XlsxFile.formats toInt { f with parts := fun path => (f.parts path).map fun doc => ⟨pre doc, false⟩ } =
        .ok styles := hs
    unfold readXlsx
    rw [hs, hs', hc]
    cases xlsxSheets f.rels f.workbook with
    | error e => rfl
    | ok sheets =>
      simp only
      cases selectSheet sheets ia.sheet with
      | error e => rfl
      | ok path =>
        simp only
        cases hp : f.parts path with
        | none => simp [openPart]
        | some doc =>
          simp only [openPart, Option.map_some]
          rw [h2 doc]
          rfl

/-- The example file with a broken sheet part: read as the file in which the part ends there. -/
def exBroken (n : Nat) (bad : Bool) (more : List Xml) : XlsxFile :=
  { exXlsxFile with
    parts := fun p => if p = ['x', 'l', '/', 's', '1'] then some ⟨exTSheet.events.take n ++ more, bad⟩ else none }

@[inherit_doc exBroken] def exReadBroken (n : Nat) (bad : Bool) (more : List Xml) : Py (List Fetched) :=
  (readXlsx demoEnv exLib (fun _ => none) (fun _ _ => .ok false) exInt (fun s => s == ['-']) exConcat {} {}
      (exBroken n bad more)).map (·.arrays)

/-- A syntax error, or a cell without a reference, before the last cell. -/
example : exReadBroken 37 true [] =
    .ok [.arr ⟨.utf8, [some (.str ['y', 'z']), none, none, some (.str ['1'])]⟩,
      .arr ⟨.ts, [none, none, none, some (.ts 1704067200000)]⟩,
      .arr ⟨.utf8, [some (.str ['q']), none, none, none]⟩] ∧
    exReadBroken 37 false [] = exReadBroken 37 true [] ∧
    exReadBroken 37 false (.start tagC [] :: exTSheet.events.drop 37) = exReadBroken 37 true [] := by
  decide +kernel

end Rxls
