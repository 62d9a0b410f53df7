import Verif.Spec.NullValues
import Verif.Props.TakeRows
import Verif.Props.TwoFormats

/-! # C129: `null_values` has the effect of emptying cells -/

namespace Rxls

theorem emptied_inline (P : Str → Bool) (g : TGrid) : (g.emptied P).inline = g.inline := by
  funext k
  unfold TGrid.inline TGrid.emptied
  rw [List.all_map]
  congr 1
  funext row
  simp only [Function.comp, List.all_filter]
  congr 1
  funext c
  cases c.content <;> simp

theorem emptied_inline_xlsb (P : Str → Bool) (g : Grid) : (g.emptied P).inline = g.inline := by
  funext k
  unfold Grid.inline Grid.emptied
  rw [List.all_map]
  congr 1
  funext row
  simp only [Function.comp, List.all_filter]
  congr 1
  funext c
  cases c.content <;> simp

theorem emptied_values (env : Env) (P Q : Str → Bool) (formats : List StyleClass) (shared : List Str) (g : TGrid) :
    (g.emptied P).values env Q formats shared = g.values env (fun s => Q s || P s) formats shared := by
  unfold TGrid.values TGrid.emptied
  rw [List.map_map]
  refine List.map_congr_left fun row _ => ?_
  simp only [Function.comp, rowValues, List.filter_filter]
  congr 1
  refine List.filter_congr fun c _ => ?_
  unfold TCell.blank
  cases c.content <;> simp [Bool.and_assoc]

theorem emptied_values_xlsb (P : Str → Bool) (temporal : List Bytes) (shared : List Str) (g : Grid) :
    (g.emptied P).values temporal shared (fun _ => false) = g.values temporal shared P := by
  unfold Grid.values Grid.emptied
  rw [List.map_map]
  refine List.map_congr_left fun row _ => ?_
  simp only [Function.comp, List.filter_filter]
  congr 1
  refine List.filter_congr fun c _ => ?_
  unfold GCell.blank
  cases c.content <;> simp

/-- **C129**, XLSX.  With `null_values`, a file is read as the file in which the cells with these texts are missing is read
without `null_values`, whatever the other arguments. -/
theorem C129_xlsx_partial {A D : Type} (env : Env) (lib : Lib A D) (search : Str → Option (Str → Bool))
    (reMatch : Str → Str → Py Bool) (toInt : Str → Option Int) (a : FileArgs D) (k t : Nat)
    (hk : a.iter.skipRows = k) (ht : a.iter.takeRows = t) (ha : a.table.Sensible) (p p' : Package)
    (hp : workbookXml ∈ p.names) (hp' : workbookXml ∈ p'.names) (o : ConcatOpts)
    (ho : o = concatOpts a.conflict a.formats a.precision)
    (formats : List StyleClass) (shared : List Str) (g : TGrid)
    (h : p.xlsx.Holds env toInt a.iter.sheet (fun s => decide (s ∈ errorTexts) || a.nulls.asks s) formats shared g)
    (h' : p'.xlsx.Holds env toInt a.iter.sheet (fun s => decide (s ∈ errorTexts)) formats shared (g.emptied a.nulls.asks))
    (V : VGrid) (hV : V = ((g.emptied a.nulls.asks).values env (fun s => decide (s ∈ errorTexts)) formats shared).shownXlsx k t
      a.iter.keepEmpty a.iter.skipCols)
    (hres : V.Resolvable env o g.inline) (hdata : V.flatten ≠ [] → V.HasData env search a.table o) :
    readFile env lib search reMatch toInt a p = readFile env lib search reMatch toInt { a with nulls := .none } p' := by
  rw [C69_xlsx env lib search reMatch toInt a k t hk ht ha p hp _ (fun _ => rfl) o ho formats shared g h V
      (by rw [hV, emptied_values]) hres hdata,
    C69_xlsx env lib search reMatch toInt { a with nulls := .none } k t hk ht ha p' hp' _ (fun s => by simp [NullArg.asks]) o ho
      formats shared _ h' V hV (by rw [emptied_inline]; exact hres) hdata]

/-- **C129**, XLSB: the same. -/
theorem C129_xlsb_partial {A D : Type} (env : Env) (lib : Lib A D) (search : Str → Option (Str → Bool))
    (reMatch : Str → Str → Py Bool) (toInt : Str → Option Int) (a : FileArgs D) (k t : Nat)
    (hk : a.iter.skipRows = k) (ht : a.iter.takeRows = t) (ha : a.table.Sensible) (p p' : Package)
    (hp : workbookXml ∉ p.names) (hp' : workbookXml ∉ p'.names) (hb : workbookBin ∈ p.names) (hb' : workbookBin ∈ p'.names)
    (o : ConcatOpts) (ho : o = concatOpts a.conflict a.formats a.precision)
    (temporal : List Bytes) (shared : List Str) (g : Grid)
    (h : p.xlsb.Holds a.iter.sheet a.nulls.asks temporal shared g)
    (h' : p'.xlsb.Holds a.iter.sheet (fun _ => false) temporal shared (g.emptied a.nulls.asks)) (V : VGrid)
    (hV : V = ((g.emptied a.nulls.asks).values temporal shared fun _ => false).shownXlsb k t a.iter.keepEmpty a.iter.skipCols)
    (hres : V.Resolvable env o g.inline) (hdata : V.flatten ≠ [] → V.HasData env search a.table o) :
    readFile env lib search reMatch toInt a p = readFile env lib search reMatch toInt { a with nulls := .none } p' := by
  rw [C69_xlsb env lib search reMatch toInt a k t hk ht ha p hp hb o ho temporal shared g h V
      (by rw [hV, emptied_values_xlsb]) hres hdata,
    C69_xlsb env lib search reMatch toInt { a with nulls := .none } k t hk ht ha p' hp' hb' o ho
      temporal shared _ h' V hV (by rw [emptied_inline_xlsb]; exact hres) hdata]

/-! ## Examples -/

/-- What `read` gives for a sheet with these cells. -/
def exNullRead (nulls : NullArg) (g : TGrid) : Py (List Fetched) :=
  let sheet : XSheet := ⟨[], g.map fun row => ⟨[], row.map TCell.xml⟩, []⟩
  (readFile textEnv exLib (fun _ => none) (fun _ _ => .ok false) exInt { nulls := nulls }
      ⟨[workbookXml], { exXlsxFile with parts := fun _ => some ⟨sheet.events, false⟩ }, exFile⟩).map (·.arrays)

/-- 1, then the text "-" in the cell, then 2. -/
def exNullGrid : TGrid :=
  [[⟨0, [49], some 2, .plain ['1'], [], []⟩], [⟨0, [50], none, .plain ['-', ' '], [], []⟩, ⟨1, [50], none, .plain ['y'], [], []⟩],
    [⟨0, [51], some 2, .plain ['2'], [], []⟩]]

/-- The same with the shared string "x" instead. -/
def exNullShared : TGrid :=
  [[⟨0, [49], some 2, .plain ['1'], [], []⟩], [⟨0, [50], none, .shared 0, [], []⟩, ⟨1, [50], none, .plain ['y'], [], []⟩],
    [⟨0, [51], some 2, .plain ['2'], [], []⟩]]

/-- A text in its cell: null values make the column a column of numbers, as if the cell were missing. -/
example : exNullRead (.values [['-']]) exNullGrid =
      .ok [.arr ⟨.i8, [some (.i8 1), none, some (.i8 2)]⟩, .arr ⟨.utf8, [none, some (.str ['y']), none]⟩] ∧
    exNullRead .none (exNullGrid.emptied fun s => decide (s ∈ [['-']])) =
      .ok [.arr ⟨.i8, [some (.i8 1), none, some (.i8 2)]⟩, .arr ⟨.utf8, [none, some (.str ['y']), none]⟩] ∧
    exNullRead .none exNullGrid =
      .ok [.arr ⟨.utf8, [some (.str ['1']), some (.str ['-']), some (.str ['2'])]⟩,
        .arr ⟨.utf8, [none, some (.str ['y']), none]⟩] := by decide +kernel

/-- **C129**, finding: a shared string that counts as null is empty in the table, but its column is a column of texts;
without the cell it is a column of numbers. -/
theorem C129_finding : exNullRead (.values [['x']]) exNullShared =
      .ok [.arr ⟨.utf8, [some (.str ['1']), none, some (.str ['2'])]⟩, .arr ⟨.utf8, [none, some (.str ['y']), none]⟩] ∧
    exNullRead .none (exNullShared.map fun row => row.filter fun c => c.content ≠ .shared 0) =
      .ok [.arr ⟨.i8, [some (.i8 1), none, some (.i8 2)]⟩, .arr ⟨.utf8, [none, some (.str ['y']), none]⟩] := by
  decide +kernel

end Rxls
