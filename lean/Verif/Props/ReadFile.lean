import Verif.Model.ReadFile
import Verif.Props.EndToEndXlsx
import Verif.Props.XlsbParts
import Verif.Props.Resolve

/-! # Property C69: `read` from its arguments -/

namespace Rxls

/-- The caller asks for a text to be null. -/
def NullArg.asks : NullArg → Str → Bool
  | .none, _ => false
  | .pred p, s => p s
  | .values l, s => decide (s ∈ l)

theorem skip_xlsx (arg : NullArg) :
    skipPredicate errorStringsXlsx arg = fun s => decide (s ∈ errorTexts) || arg.asks s := by
  funext s
  rw [Bool.eq_iff_iff, C48_xlsx_predicate, Bool.or_eq_true, decide_eq_true_iff]
  cases arg <;> simp [NullArg.asks]

theorem skip_xlsb (arg : NullArg) : skipPredicate errorStringsXlsb arg = arg.asks := by
  funext s
  rw [Bool.eq_iff_iff, C48_xlsb_predicate]
  cases arg <;> simp [NullArg.asks]

/-- C69.  An archive with an XLSX workbook that holds a grid: the table of its values, where the error texts and the
texts the caller names are null, and columns are resolved as the caller asks. -/
theorem C69_xlsx {A D : Type} (env : Env) (lib : Lib A D) (search : Str → Option (Str → Bool))
    (reMatch : Str → Str → Py Bool) (toInt : Str → Option Int) (a : FileArgs D) (k t : Nat)
    (hk : a.iter.skipRows = k) (ht : a.iter.takeRows = t) (ha : a.table.Sensible) (p : Package)
    (hp : workbookXml ∈ p.names) (isNull : Str → Bool) (hnull : ∀ s, isNull s = (decide (s ∈ errorTexts) || a.nulls.asks s))
    (o : ConcatOpts) (ho : o = concatOpts a.conflict a.formats a.precision)
    (formats : List StyleClass) (shared : List Str) (g : TGrid)
    (h : p.xlsx.Holds env toInt a.iter.sheet isNull formats shared g) (V : VGrid)
    (hV : V = (g.values env isNull formats shared).shownXlsx k t a.iter.keepEmpty a.iter.skipCols)
    (hres : V.Resolvable env o g.inline) (hdata : V.flatten ≠ [] → V.HasData env search a.table o) :
    readFile env lib search reMatch toInt a p =
      if V.flatten = [] then .error .valueError else V.table env lib search reMatch a.table o := by
  have hf : fileKind p.names = .ok .xlsx := by simp [fileKind, hp]
  unfold readFile
  rw [hf]
  simp only
  rw [skip_xlsx, ← ho, show (fun s => decide (s ∈ errorTexts) || a.nulls.asks s) = isNull from (funext hnull).symm]
  have e : a.iter = { sheet := a.iter.sheet, skipRows := k, takeRows := t, keepEmpty := a.iter.keepEmpty, skipCols := a.iter.skipCols } := by
    rw [← hk, ← ht]
  rw [e]
  exact C63_xlsx_to_table env lib search reMatch toInt isNull o k t _ _ _ a.table ha p.xlsx formats shared g h V hV hres hdata

/-- C69.  The same for an archive with an XLSB workbook; no error text is null unless the caller asks for it (C48). -/
theorem C69_xlsb {A D : Type} (env : Env) (lib : Lib A D) (search : Str → Option (Str → Bool))
    (reMatch : Str → Str → Py Bool) (toInt : Str → Option Int) (a : FileArgs D) (k t : Nat)
    (hk : a.iter.skipRows = k) (ht : a.iter.takeRows = t) (ha : a.table.Sensible) (p : Package)
    (hp : workbookXml ∉ p.names) (hp' : workbookBin ∈ p.names)
    (o : ConcatOpts) (ho : o = concatOpts a.conflict a.formats a.precision)
    (temporal : List Bytes) (shared : List Str) (g : Grid)
    (h : p.xlsb.Holds a.iter.sheet a.nulls.asks temporal shared g) (V : VGrid)
    (hV : V = (g.values temporal shared a.nulls.asks).shownXlsb k t a.iter.keepEmpty a.iter.skipCols)
    (hres : V.Resolvable env o g.inline) (hdata : V.flatten ≠ [] → V.HasData env search a.table o) :
    readFile env lib search reMatch toInt a p =
      if V.flatten = [] then .error .valueError else V.table env lib search reMatch a.table o := by
  have hf : fileKind p.names = .ok .xlsb := by simp [fileKind, hp, hp']
  unfold readFile
  rw [hf]
  simp only
  rw [skip_xlsb, ← ho]
  have e : a.iter = { sheet := a.iter.sheet, skipRows := k, takeRows := t, keepEmpty := a.iter.keepEmpty, skipCols := a.iter.skipCols } := by
    rw [← hk, ← ht]
  rw [e]
  exact C64_xlsb_to_table env lib search reMatch a.nulls.asks o k t _ _ _ a.table ha p.xlsb temporal shared g h V hV hres hdata

/-- C69.  Any other archive is refused, whatever the arguments. -/
theorem C69_no_workbook {A D : Type} (env : Env) (lib : Lib A D) (search : Str → Option (Str → Bool))
    (reMatch : Str → Str → Py Bool) (toInt : Str → Option Int) (a : FileArgs D) (p : Package)
    (h1 : "xl/workbook.xml".toList ∉ p.names) (h2 : "xl/workbook.bin".toList ∉ p.names) :
    readFile env lib search reMatch toInt a p = .error .assertionError := by
  have h1 : workbookXml ∉ p.names := h1
  have h2 : workbookBin ∉ p.names := h2
  unfold readFile
  simp [fileKind, h1, h2]

/-- C69.  Negative row counts are refused, in both formats, once the sheet is found. -/
theorem C69_negative_rows {A D : Type} (env : Env) (lib : Lib A D) (search : Str → Option (Str → Bool))
    (reMatch : Str → Str → Py Bool) (toInt : Str → Option Int) (a : FileArgs D) (p : Package)
    (h : a.iter.skipRows < 0 ∨ a.iter.takeRows < 0) (kind : Kind) (hk : fileKind p.names = .ok kind)
    (hs : ∃ sheets path, (match kind with
        | .xlsx => xlsxSheets p.xlsx.rels p.xlsx.workbook
        | .xlsb => xlsbSheets p.xlsb.rels p.xlsb.workbook) = .ok sheets ∧ selectSheet sheets a.iter.sheet = .ok path) :
    readFile env lib search reMatch toInt a p = .error .valueError := by
  obtain ⟨sheets, path, e1, e2⟩ := hs
  have hc : checkRows a.iter.skipRows a.iter.takeRows = .error .valueError := by
    unfold checkRows
    by_cases h1 : a.iter.skipRows < 0
    · simp [h1]
    · have := h.resolve_left h1
      simp [h1, this]
  unfold readFile
  rw [hk]
  cases kind with
  | xlsx =>
    simp only at e1 ⊢
    unfold readXlsx
    simp only [e1, e2, hc]
  | xlsb =>
    simp only at e1 ⊢
    unfold readXlsb
    simp only [e1, e2, hc]

/-- C69.  What the words for `conflict_resolve` switch on. -/
theorem C69_conflict_words (f : FormatsArg) (n : Nat) :
    ((concatOpts "no".toList f n).confDt = false ∧ (concatOpts "no".toList f n).confNum = false) ∧
    ((concatOpts "temporal".toList f n).confDt = true ∧ (concatOpts "temporal".toList f n).confNum = false) ∧
    ((concatOpts "numeric".toList f n).confDt = false ∧ (concatOpts "numeric".toList f n).confNum = true) ∧
    ((concatOpts "all".toList f n).confDt = true ∧ (concatOpts "all".toList f n).confNum = true) := by
  simp only [concatOpts]
  decide +kernel

/-- Finding, C69: a word that is none of the four is not refused; it means "no". -/
theorem C69_unknown_word {A D : Type} (env : Env) (lib : Lib A D) (search : Str → Option (Str → Bool))
    (reMatch : Str → Str → Py Bool) (toInt : Str → Option Int) (a : FileArgs D) (p : Package) (word : Str)
    (h : word ∉ ["temporal".toList, "numeric".toList, "all".toList]) :
    readFile env lib search reMatch toInt { a with conflict := word } p =
      readFile env lib search reMatch toInt { a with conflict := "no".toList } p := by
  have h1 : word ≠ strTemporal := fun e => h (by rw [e]; decide +kernel)
  have h2 : word ≠ strNumeric := fun e => h (by rw [e]; decide +kernel)
  have h3 : word ≠ strAll := fun e => h (by rw [e]; decide +kernel)
  have e : ∀ f n, concatOpts word f n = concatOpts "no".toList f n := by
    intro f n
    have hno := (C69_conflict_words f n).1
    have e1 : (concatOpts word f n).confDt = false := by simp [concatOpts, h1, h3]
    have e2 : (concatOpts word f n).confNum = false := by simp [concatOpts, h2, h3]
    have e3 : concatOpts word f n = ⟨(concatOpts word f n).confDt, (concatOpts word f n).confNum, f.toList, n⟩ := rfl
    have e4 : concatOpts "no".toList f n =
      ⟨(concatOpts "no".toList f n).confDt, (concatOpts "no".toList f n).confNum, f.toList, n⟩ := rfl
    rw [e3, e4, e1, e2, hno.1, hno.2]
  unfold readFile
  simp only [e]

/-- C69.  A single format is the tuple of it, and no format is the empty tuple. -/
theorem C69_formats {A D : Type} (env : Env) (lib : Lib A D) (search : Str → Option (Str → Bool))
    (reMatch : Str → Str → Py Bool) (toInt : Str → Option Int) (a : FileArgs D) (p : Package) (s : Str) :
    readFile env lib search reMatch toInt { a with formats := .one s } p =
      readFile env lib search reMatch toInt { a with formats := .many [s] } p ∧
    readFile env lib search reMatch toInt { a with formats := .none } p =
      readFile env lib search reMatch toInt { a with formats := .many [] } p := ⟨rfl, rfl⟩

/-- The files of C62 and C63 as archives. -/
def exArchive (names : List Str) (a : FileArgs DType) : Py (List Fetched) :=
  (readFile demoEnv exLib (fun _ => none) (fun _ _ => .ok false) exInt a ⟨names, exXlsxFile, exFile⟩).map (·.arrays)

example : exArchive [['x'], workbookXml] { nulls := .values [['-']] } = exReadX {} ∧
    exArchive [['x'], workbookBin] { nulls := .pred fun s => s.length == 1 && s.head? == some '-' } = exReadB {} ∧
    exArchive [workbookBin, workbookXml] { nulls := .values [['-']] } = exReadX {} ∧
    exArchive [['x']] {} = .error .assertionError ∧
    exArchive [workbookXml] { iter := { skipRows := -1 } } = .error .valueError ∧
    exArchive [workbookXml] { conflict := ['A', 'l', 'l'], nulls := .values [['-']] } = exReadX {} := by
  decide +kernel

/-- With `all` nothing changes here: the text beside the number in the first column is no number.  Without
`null_values` the text `-` is read. -/
example : exArchive [workbookXml] { conflict := strAll, nulls := .values [['-']] } = exReadX {} ∧
    exArchive [workbookBin] {} ≠ exReadB {} := by
  decide +kernel

end Rxls
