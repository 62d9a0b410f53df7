import Verif.Props.LookupSize
import Verif.Props.Held

/-! # C144: the way the header is looked for counts only through the row found -/

namespace Rxls

/-- The result of a sheet resolved run by run depends on the way of looking through the row only. -/
theorem sheetTableV_lookup {A D : Type} (env : Env) (lib : Lib A D) (search : Str → Option (Str → Bool))
    (reMatch : Str → Str → Py Bool) (args : ReadArgs D) (grid : Int → View) (seen keys : List Int) (span : Int)
    (lookup' : Lookup) (size' : Int)
    (h : lookupRowV env grid seen size'.toNat search lookup' = lookupRowV env grid seen args.lookupSize.toNat search args.lookup) :
    sheetTableV env lib search reMatch { args with lookup := lookup', lookupSize := size' } grid seen keys span =
      sheetTableV env lib search reMatch args grid seen keys span := by
  unfold sheetTableV
  simp only [h]

/-- **C144** (cells).  Two ways of looking for the header that find the same row give the same table: whatever is in the
sheet, if both reads give a table, it is the same one. -/
theorem C144_cells {A D : Type} (env : Env) (b : Bool) (shared : List (Option Str)) (o : ConcatOpts)
    (lib : Lib A D) (search : Str → Option (Str → Bool)) (reMatch : Str → Str → Py Bool) (args : ReadArgs D)
    (cells : List Cell) (hne : cells ≠ []) (hv : ValidCells env b shared cells) (ha : args.Sensible)
    (lookup' : Lookup) (size' : Int) (hs : 0 < size') (row : Nat)
    (h : lookupRowV env (heldView env o b shared cells) (firstSeen cells) args.lookupSize.toNat search args.lookup = .ok (some row))
    (h' : lookupRowV env (heldView env o b shared cells) (firstSeen cells) size'.toNat search lookup' = .ok (some row))
    (hlen : 0 < maxSpan cells - row - args.header.height - args.skipAfter) (t t' : Table A)
    (ht : readCells env lib search reMatch args (freshSeries shared b o) cells = .ok t)
    (ht' : readCells env lib search reMatch { args with lookup := lookup', lookupSize := size' } (freshSeries shared b o) cells =
      .ok t') : t' = t := by
  rw [C68_history env b shared o lib search reMatch args cells hne hv ha (by
    intro r hr
    rw [h] at hr
    cases hr
    exact hlen)] at ht
  rw [C68_history env b shared o lib search reMatch { args with lookup := lookup', lookupSize := size' } cells hne hv
    ⟨hs, ha.header⟩ (by
      intro r hr
      simp only at hr
      rw [h'] at hr
      cases hr
      exact hlen)] at ht'
  rw [sheetTableV_lookup _ _ _ _ _ _ _ _ _ _ _ (h'.trans h.symm)] at ht'
  split at ht
  · cases ht
  · split at ht'
    · cases ht'
    · exact Except.ok.inj (ht'.symm.trans ht)

/-- **C144** (cells).  If no column has both moments and shared strings, exceptions are the same, too. -/
theorem C144_result {A D : Type} (env : Env) (b : Bool) (shared : List (Option Str)) (o : ConcatOpts)
    (lib : Lib A D) (search : Str → Option (Str → Bool)) (reMatch : Str → Str → Py Bool) (args : ReadArgs D)
    (cells : List Cell) (hne : cells ≠ [])
    (hr : ∀ k, HeldDatable o (inlineColumn cells k) (heldRows env b shared (rawColumn (colCells cells k))))
    (hv : ValidCells env b shared cells) (ha : args.Sensible)
    (lookup' : Lookup) (size' : Int) (hs : 0 < size') (row : Nat)
    (h : lookupRowV env (heldView env o b shared cells) (firstSeen cells) args.lookupSize.toNat search args.lookup = .ok (some row))
    (h' : lookupRowV env (heldView env o b shared cells) (firstSeen cells) size'.toNat search lookup' = .ok (some row))
    (hlen : 0 < maxSpan cells - row - args.header.height - args.skipAfter) :
    readCells env lib search reMatch { args with lookup := lookup', lookupSize := size' } (freshSeries shared b o) cells =
      readCells env lib search reMatch args (freshSeries shared b o) cells := by
  rw [C68_held env b shared o lib search reMatch args cells hne hr hv ha (by
    intro r hr
    rw [h] at hr
    cases hr
    exact hlen),
    C68_held env b shared o lib search reMatch { args with lookup := lookup', lookupSize := size' } cells hne hr hv
    ⟨hs, ha.header⟩ (by
      intro r hr
      simp only at hr
      rw [h'] at hr
      cases hr
      exact hlen),
    sheetTableV_lookup _ _ _ _ _ _ _ _ _ _ _ (h'.trans h.symm)]

/-- The way of looking matters for the row found only. -/
theorem table_lookup {A D : Type} (env : Env) (lib : Lib A D) (search : Str → Option (Str → Bool))
    (reMatch : Str → Str → Py Bool) (args : ReadArgs D) (o : ConcatOpts) (V : VGrid) (lookup' : Lookup) (size' : Int)
    (h : lookupRow env o V.column V.seen size'.toNat search lookup' =
      lookupRow env o V.column V.seen args.lookupSize.toNat search args.lookup) :
    V.table env lib search reMatch { args with lookup := lookup', lookupSize := size' } o = V.table env lib search reMatch args o := by
  unfold VGrid.table sheetTable
  simp only [h]

/-- **C144** (XLSX).  Two ways of looking for the header that find the same row (or none, or raise the same exception)
give the same result for a file. -/
theorem C144_xlsx {A D : Type} (env : Env) (lib : Lib A D) (search : Str → Option (Str → Bool))
    (reMatch : Str → Str → Py Bool) (toInt : Str → Option Int) (a : FileArgs D) (k t : Nat)
    (hk : a.iter.skipRows = k) (ht : a.iter.takeRows = t) (ha : a.table.Sensible) (p : Package)
    (hp : workbookXml ∈ p.names) (isNull : Str → Bool) (hnull : ∀ s, isNull s = (decide (s ∈ errorTexts) || a.nulls.asks s))
    (o : ConcatOpts) (ho : o = concatOpts a.conflict a.formats a.precision)
    (formats : List StyleClass) (shared : List Str) (g : TGrid)
    (h : p.xlsx.Holds env toInt a.iter.sheet isNull formats shared g) (V : VGrid)
    (hV : V = (g.values env isNull formats shared).shownXlsx k t a.iter.keepEmpty a.iter.skipCols)
    (hres : V.Resolvable env o g.inline) (hdata : V.flatten ≠ [] → V.HasData env search a.table o)
    (lookup' : Lookup) (size' : Int) (hs : 0 < size')
    (hrow : lookupRow env o V.column V.seen size'.toNat search lookup' =
      lookupRow env o V.column V.seen a.table.lookupSize.toNat search a.table.lookup) :
    readFile env lib search reMatch toInt { a with table.lookup := lookup', table.lookupSize := size' } p =
      readFile env lib search reMatch toInt a p := by
  rw [C69_xlsx env lib search reMatch toInt a k t hk ht ha p hp isNull hnull o ho formats shared g h V hV hres hdata,
    C69_xlsx env lib search reMatch toInt { a with table.lookup := lookup', table.lookupSize := size' } k t hk ht
      ⟨hs, ha.header⟩ p hp isNull hnull o ho formats shared g h V hV hres (by
        intro hne r hr
        simp only at hr
        rw [hrow] at hr
        exact hdata hne r hr)]
  simp only
  rw [table_lookup env lib search reMatch a.table o V lookup' size' hrow]

/-- **C144** (XLSB).  The same for the binary format. -/
theorem C144_xlsb {A D : Type} (env : Env) (lib : Lib A D) (search : Str → Option (Str → Bool))
    (reMatch : Str → Str → Py Bool) (toInt : Str → Option Int) (a : FileArgs D) (k t : Nat)
    (hk : a.iter.skipRows = k) (ht : a.iter.takeRows = t) (ha : a.table.Sensible) (p : Package)
    (hp : workbookXml ∉ p.names) (hb : workbookBin ∈ p.names)
    (o : ConcatOpts) (ho : o = concatOpts a.conflict a.formats a.precision)
    (temporal : List Bytes) (shared : List Str) (g : Grid)
    (h : p.xlsb.Holds a.iter.sheet a.nulls.asks temporal shared g) (V : VGrid)
    (hV : V = (g.values temporal shared a.nulls.asks).shownXlsb k t a.iter.keepEmpty a.iter.skipCols)
    (hres : V.Resolvable env o g.inline) (hdata : V.flatten ≠ [] → V.HasData env search a.table o)
    (lookup' : Lookup) (size' : Int) (hs : 0 < size')
    (hrow : lookupRow env o V.column V.seen size'.toNat search lookup' =
      lookupRow env o V.column V.seen a.table.lookupSize.toNat search a.table.lookup) :
    readFile env lib search reMatch toInt { a with table.lookup := lookup', table.lookupSize := size' } p =
      readFile env lib search reMatch toInt a p := by
  rw [C69_xlsb env lib search reMatch toInt a k t hk ht ha p hp hb o ho temporal shared g h V hV hres hdata,
    C69_xlsb env lib search reMatch toInt { a with table.lookup := lookup', table.lookupSize := size' } k t hk ht
      ⟨hs, ha.header⟩ p hp hb o ho temporal shared g h V hV hres (by
        intro hne r hr
        simp only at hr
        rw [hrow] at hr
        exact hdata hne r hr)]
  simp only
  rw [table_lookup env lib search reMatch a.table o V lookup' size' hrow]

/-! ## Examples and findings -/

/-- A pattern, a column and no lookup at all, all finding row 0. -/
example : exLookupRead exLookupGrid (.pattern ['k']) 2 = exLookupRead exLookupGrid (.column 1) 7 ∧
    exLookupRead exLookupGrid (.pattern ['k']) 2 = exLookupRead exLookupGrid .none 1 ∧
    exLookupRead exLookupGrid (.pattern ['k']) 2 ≠ exLookupRead exLookupGrid (.pattern ['a']) 2 := by decide +kernel

/-- The rows with a value that `read` gives for a text and two numbers in a column, all numbers after conversion, with the
header looked for in this many rows of the column, and without a header row. -/
def exSizeRead (size : Int) : List (List Bool) :=
  match readCells demoEnv exLib (fun p => some fun s => s = p) (fun _ _ => .ok false)
    { lookup := .column 0, lookupSize := size } (freshSeries [] true (concatOpts "numeric".toList .none 6))
    [tx 0 0 ['5'], nm 1 0 1, nm 2 0 2] with
  | .ok t => t.arrays.map fun
    | .nulls n => List.replicate n false
    | .arr a => a.vals.map Option.isSome
  | .error _ => []

/-- **C144**, finding: why a positive `lookup_size` is asked for.  With `lookup_size=0` the column is looked through without
a window, in place: the text becomes a number in a chunk of size 0, which the next reading leaves out.  The row is found
in the same place, but the first value is gone, the others move up, and a null is appended. -/
theorem C144_finding : exSizeRead 1 = [[true, true, true]] ∧ exSizeRead 30 = [[true, true, true]] ∧
    exSizeRead 0 = [[true, true, false]] := by decide +kernel

/-- The rows with a value for an XLSX file with the text `5` above the numbers 1 and 2. -/
def exSizeFile (size : Int) (lookup : Lookup) : List (List Bool) :=
  let number (r : Nat) (s : Str) : TCell := ⟨0, [(49 + r).toUInt8], some 2, .plain s, [], []⟩
  let g : TGrid := [[exLookupText 0 0 ['5']], [number 1 ['1']], [number 2 ['2']]]
  let sheet : XSheet := ⟨[], g.map fun row => ⟨[], row.map TCell.xml⟩, []⟩
  match readFile textEnv exLib (fun p => some fun s => s = p) (fun _ _ => .ok false) exInt
    { table := { lookup := lookup, lookupSize := size }, conflict := "numeric".toList }
    ⟨[workbookXml], { exXlsxFile with parts := fun _ => some ⟨sheet.events, false⟩ }, exFile⟩ with
  | .ok t => t.arrays.map fun
    | .nulls n => List.replicate n false
    | .arr a => a.vals.map Option.isSome
  | .error _ => []

/-- **C144**, finding, for a whole file: `lookup_size=0` loses the first value; without `lookup_head` it does not. -/
theorem C144_file_finding : exSizeFile 30 (.column 0) = [[true, true, true]] ∧ exSizeFile 0 .none = [[true, true, true]] ∧
    exSizeFile 0 (.column 0) = [[true, true, false]] := by decide +kernel

end Rxls
