import Verif.Spec.DataStart
import Verif.Props.Renamed

/-! # C136: the header and the search for it decide about names and about the first row, nothing else -/

namespace Rxls

theorem makeTable_same {A D : Type} (lib : Lib A D) {names names' : List Str} (hl : names.length = names'.length)
    (arrays : List A) : SameData (makeTable lib names arrays) (makeTable lib names' arrays) := by
  unfold makeTable
  rw [hl]
  split
  · rfl
  · split
    · exact ⟨rfl, hl.symm⟩
    · rfl

/-- C136 for tables.  The header is a number of rows and stands in row `row`. -/
theorem C136_table {A D : Type} (env : Env) (lib : Lib A D) (search : Str → Option (Str → Bool))
    (reMatch : Str → Str → Py Bool) (args : ReadArgs D) (ha : args.ByPosition) (n : Int) (hn : args.header = .rows n)
    (o : ConcatOpts) (g : VGrid) (row : Nat)
    (hrow : lookupRow env o g.column g.seen args.lookupSize.toNat search args.lookup = .ok (some row)) :
    SameData (g.table env lib search reMatch args o) (g.table env lib search reMatch (args.from (row + n + args.skipAfter)) o) := by
  unfold VGrid.table sheetTable
  have hfirst : lookupRow env o g.column g.seen args.lookupSize.toNat search .none = .ok (some 0) := rfl
  simp only [hrow, hn, ReadArgs.from, hfirst, HeaderArg.height]
  obtain ⟨names, hnames, hlen⟩ : ∃ names, namesFor env o g.column g.columns row (.rows n) = .ok names ∧
      names.length = g.columns.length := by
    unfold namesFor
    simp only
    split
    · exact ⟨_, rfl, by simp⟩
    · exact ⟨_, rfl, by simp⟩
  obtain ⟨names', hnames', hlen'⟩ : ∃ names, namesFor env o g.column g.columns 0 (.rows 0) = .ok names ∧
      names.length = g.columns.length := ⟨_, rfl, by simp⟩
  have hl : names.length = names'.length := by rw [hlen, hlen']
  simp only [hnames, hnames']
  rw [filterKeys_names ha reMatch names' names]
  cases filterKeys reMatch names g.columns args.filters with
  | error e => rfl
  | ok fs =>
    simp only
    rw [show (0 : Int) + ((0 : Nat) : Int) + (row + n + args.skipAfter) = n + row + args.skipAfter by omega,
      show (g.maxSpan : Int) - ((0 : Nat) : Int) - 0 - (row + n + args.skipAfter) = g.maxSpan - row - n - args.skipAfter by omega]
    cases maskFor env o g.column fs args.strategy (n + row + args.skipAfter).toNat
        ((g.maxSpan : Int) - row - n - args.skipAfter).toNat with
    | error e => rfl
    | ok m =>
      simp only [tableOf]
      rw [applyDtypes_names ha lib hl]
      split
      · rfl
      · exact makeTable_same lib hl _

/-- **C136**, XLSX.  If the header is `n` rows and found in row `row`, the arrays are those read without a header when the rows
up to the end of the header are skipped, together with those that `skip_rows_after_header` names. -/
theorem C136_xlsx {A D : Type} (env : Env) (lib : Lib A D) (search : Str → Option (Str → Bool))
    (reMatch : Str → Str → Py Bool) (toInt : Str → Option Int) (a : FileArgs D) (k t : Nat)
    (hk : a.iter.skipRows = k) (ht : a.iter.takeRows = t) (ha : a.table.Sensible) (hpos : a.table.ByPosition)
    (n : Int) (hn : a.table.header = .rows n) (p : Package)
    (hp : workbookXml ∈ p.names) (isNull : Str → Bool) (hnull : ∀ s, isNull s = (decide (s ∈ errorTexts) || a.nulls.asks s))
    (o : ConcatOpts) (ho : o = concatOpts a.conflict a.formats a.precision)
    (formats : List StyleClass) (shared : List Str) (g : TGrid)
    (h : p.xlsx.Holds env toInt a.iter.sheet isNull formats shared g) (V : VGrid)
    (hV : V = (g.values env isNull formats shared).shownXlsx k t a.iter.keepEmpty a.iter.skipCols)
    (hres : V.Resolvable env o g.inline) (hdata : V.flatten ≠ [] → V.HasData env search a.table o) (row : Nat)
    (hrow : lookupRow env o V.column V.seen a.table.lookupSize.toNat search a.table.lookup = .ok (some row)) :
    SameData (readFile env lib search reMatch toInt a p)
      (readFile env lib search reMatch toInt { a with table := a.table.from (row + n + a.table.skipAfter) } p) := by
  rw [C69_xlsx env lib search reMatch toInt a k t hk ht ha p hp isNull hnull o ho formats shared g h V hV hres hdata,
    C69_xlsx env lib search reMatch toInt { a with table := a.table.from (row + n + a.table.skipAfter) } k t hk ht
      ⟨ha.lookup, le_refl _⟩ p hp isNull hnull o ho formats shared g h V hV hres (by
        intro hne r hr
        have := hdata hne row hrow
        simp only [ReadArgs.from, lookupRow, Except.ok.injEq, Option.some.injEq] at hr
        subst hr
        simp only [hn, HeaderArg.height] at this
        simp only [ReadArgs.from, HeaderArg.height]
        omega)]
  split
  · rfl
  · exact C136_table env lib search reMatch a.table hpos n hn o V row hrow

/-- **C136**, XLSB. -/
theorem C136_xlsb {A D : Type} (env : Env) (lib : Lib A D) (search : Str → Option (Str → Bool))
    (reMatch : Str → Str → Py Bool) (toInt : Str → Option Int) (a : FileArgs D) (k t : Nat)
    (hk : a.iter.skipRows = k) (ht : a.iter.takeRows = t) (ha : a.table.Sensible) (hpos : a.table.ByPosition)
    (n : Int) (hn : a.table.header = .rows n) (p : Package)
    (hp : workbookXml ∉ p.names) (hb : workbookBin ∈ p.names)
    (o : ConcatOpts) (ho : o = concatOpts a.conflict a.formats a.precision)
    (temporal : List Bytes) (shared : List Str) (g : Grid)
    (h : p.xlsb.Holds a.iter.sheet a.nulls.asks temporal shared g) (V : VGrid)
    (hV : V = (g.values temporal shared a.nulls.asks).shownXlsb k t a.iter.keepEmpty a.iter.skipCols)
    (hres : V.Resolvable env o g.inline) (hdata : V.flatten ≠ [] → V.HasData env search a.table o) (row : Nat)
    (hrow : lookupRow env o V.column V.seen a.table.lookupSize.toNat search a.table.lookup = .ok (some row)) :
    SameData (readFile env lib search reMatch toInt a p)
      (readFile env lib search reMatch toInt { a with table := a.table.from (row + n + a.table.skipAfter) } p) := by
  rw [C69_xlsb env lib search reMatch toInt a k t hk ht ha p hp hb o ho temporal shared g h V hV hres hdata,
    C69_xlsb env lib search reMatch toInt { a with table := a.table.from (row + n + a.table.skipAfter) } k t hk ht
      ⟨ha.lookup, le_refl _⟩ p hp hb o ho temporal shared g h V hV hres (by
        intro hne r hr
        have := hdata hne row hrow
        simp only [ReadArgs.from, lookupRow, Except.ok.injEq, Option.some.injEq] at hr
        subst hr
        simp only [hn, HeaderArg.height] at this
        simp only [ReadArgs.from, HeaderArg.height]
        omega)]
  split
  · rfl
  · exact C136_table env lib search reMatch a.table hpos n hn o V row hrow

/-! ## Examples -/

/-- What `read` gives for a sheet with these arguments. -/
def exStartRead (table : ReadArgs DType) : Py (Table Fetched) :=
  let cell : Nat → Nat → Str → TCell := fun c r s => ⟨c, [(49 + r).toUInt8], some 2, .plain s, [], []⟩
  let g : TGrid := [[⟨0, [49], none, .plain ['x'], [], []⟩, ⟨1, [49], none, .plain ['y'], [], []⟩], [cell 0 1 ['1'], cell 1 1 ['2']],
    [cell 0 2 ['3'], cell 1 2 ['4']]]
  let sheet : XSheet := ⟨[], g.map fun row => ⟨[], row.map TCell.xml⟩, []⟩
  readFile textEnv exLib (fun p => some fun s => s = p) (fun _ _ => .ok false) exInt { table := table }
    ⟨[workbookXml], { exXlsxFile with parts := fun _ => some ⟨sheet.events, false⟩ }, exFile⟩

/-- A header of one row that is looked for, and the same rows without header. -/
example : exStartRead { header := .rows 1, lookup := .pattern ['y'] } =
      .ok ⟨[['x'], ['y']], [.arr ⟨.i8, [some (.i8 1), some (.i8 3)]⟩, .arr ⟨.i8, [some (.i8 2), some (.i8 4)]⟩]⟩ ∧
    exStartRead { header := .rows 0, skipAfter := 1 } = .ok ⟨[unnamedDot ++ ['0'], unnamedDot ++ ['1']],
      [.arr ⟨.i8, [some (.i8 1), some (.i8 3)]⟩, .arr ⟨.i8, [some (.i8 2), some (.i8 4)]⟩]⟩ := by decide +kernel

end Rxls
