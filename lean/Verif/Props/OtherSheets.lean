import Verif.Spec.OtherSheets
import Verif.Props.ReadFile
import Verif.Props.TwoFormats

/-! # C131: the other sheets of a workbook do not matter -/

namespace Rxls

theorem means_path {sheets : List (Str × Str)} (hn : (sheets.map (·.1)).Nodup) {i : Nat} {name path : Str}
    (h : sheets[i]? = some (name, path)) {s : SheetArg} (hs : s.Means i name) : selectSheet sheets s = .ok path := by
  obtain ⟨h1, _, _, h4⟩ := C52_select sheets i name path
  rcases hs with rfl | rfl
  · exact h1.mpr ⟨by omega, by simp [h]⟩
  · exact (h4 hn).mpr (List.mem_of_getElem? h)

theorem sheetAt_xlsx {f : XlsxFile} {i : Nat} {name path : Str} (h : f.SheetAt i name path) {s : SheetArg}
    (hs : s.Means i name) : ∃ sheets, xlsxSheets f.rels f.workbook = .ok sheets ∧ selectSheet sheets s = .ok path := by
  obtain ⟨es, target, id, hw, hc, hr, hid, hn, ht, hi, rfl⟩ := h
  refine ⟨_, by rw [hw, C52_xlsx_sheets f.rels es hc target hr hid hn ht], means_path (by simpa [List.map_map, Function.comp_def] using hn) ?_ hs⟩
  rw [List.getElem?_map, hi]
  rfl

theorem sheetAt_xlsb {f : XlsbFile} {i : Nat} {name path : Str} (h : f.SheetAt i name path) {s : SheetArg}
    (hs : s.Means i name) : ∃ sheets, xlsbSheets f.rels f.workbook = .ok sheets ∧ selectSheet sheets s = .ok path := by
  obtain ⟨es, target, e, hw, hf, ht, hn, hi, rfl, rfl⟩ := h
  refine ⟨_, C52_xlsb_sheets f.rels f.workbook es target hw hf ht hn, means_path (by simpa [List.map_map, Function.comp_def] using hn) ?_ hs⟩
  rw [List.getElem?_map, hi]
  rfl

/-- **C131**, XLSX.  Two workbooks with the same styles and shared strings have a sheet in common, at any position, under
any name and in any part.  Asked for by position or by name, it is read alike from both, whatever the other sheets are.
Missing: workbooks with sheets of another kind, see `C131_chart_finding`. -/
theorem C131_xlsx_partial {A D : Type} (env : Env) (lib : Lib A D) (search : Str → Option (Str → Bool))
    (reMatch : Str → Str → Py Bool) (toInt : Str → Option Int) (a : FileArgs D) (p p' : Package)
    (hp : workbookXml ∈ p.names) (hp' : workbookXml ∈ p'.names) (i i' : Nat) (name name' path path' : Str)
    (h : p.xlsx.SheetAt i name path) (h' : p'.xlsx.SheetAt i' name' path') (hpart : p.xlsx.parts path = p'.xlsx.parts path')
    (hst : p.xlsx.styles = p'.xlsx.styles) (hsh : p.xlsx.shared = p'.xlsx.shared) (s s' : SheetArg)
    (hs : s.Means i name) (hs' : s'.Means i' name') :
    readFile env lib search reMatch toInt { a with iter.sheet := s } p =
      readFile env lib search reMatch toInt { a with iter.sheet := s' } p' := by
  have hf : fileKind p.names = .ok .xlsx := by simp [fileKind, hp]
  have hf' : fileKind p'.names = .ok .xlsx := by simp [fileKind, hp']
  obtain ⟨sheets, e1, e2⟩ := sheetAt_xlsx h hs
  obtain ⟨sheets', e1', e2'⟩ := sheetAt_xlsx h' hs'
  unfold readFile
  rw [hf, hf']
  simp only [readXlsx, e1, e2, e1', e2', hpart, XlsxFile.formats, XlsxFile.strings, hst, hsh]

/-- **C131**, XLSB: the same. -/
theorem C131_xlsb {A D : Type} (env : Env) (lib : Lib A D) (search : Str → Option (Str → Bool))
    (reMatch : Str → Str → Py Bool) (toInt : Str → Option Int) (a : FileArgs D) (p p' : Package)
    (hp : workbookXml ∉ p.names) (hp' : workbookXml ∉ p'.names) (hb : workbookBin ∈ p.names) (hb' : workbookBin ∈ p'.names)
    (i i' : Nat) (name name' path path' : Str)
    (h : p.xlsb.SheetAt i name path) (h' : p'.xlsb.SheetAt i' name' path') (hpart : p.xlsb.parts path = p'.xlsb.parts path')
    (hst : p.xlsb.styles = p'.xlsb.styles) (hsh : p.xlsb.shared = p'.xlsb.shared) (s s' : SheetArg)
    (hs : s.Means i name) (hs' : s'.Means i' name') :
    readFile env lib search reMatch toInt { a with iter.sheet := s } p =
      readFile env lib search reMatch toInt { a with iter.sheet := s' } p' := by
  have hf : fileKind p.names = .ok .xlsb := by simp [fileKind, hp, hb]
  have hf' : fileKind p'.names = .ok .xlsb := by simp [fileKind, hp', hb']
  obtain ⟨sheets, e1, e2⟩ := sheetAt_xlsb h hs
  obtain ⟨sheets', e1', e2'⟩ := sheetAt_xlsb h' hs'
  unfold readFile
  rw [hf, hf']
  simp only [readXlsb, e1, e2, e1', e2', hpart, XlsbFile.temporal, XlsbFile.strings, hst, hsh]

/-- **C131**, finding: an XLSX workbook with one sheet that is no worksheet, such as a chart sheet, cannot be read at all;
every read of every other sheet is a KeyError. -/
theorem C131_chart_finding {A D : Type} (env : Env) (lib : Lib A D) (search : Str → Option (Str → Bool))
    (reMatch : Str → Str → Py Bool) (toInt : Str → Option Int) (a : FileArgs D) (p : Package)
    (hp : workbookXml ∈ p.names) (es : List Xml) (hw : p.xlsx.workbook = ⟨es, false⟩) (hc : SheetsComplete es)
    (hr : (p.xlsx.rels.map (·.id)).Nodup) (hid : ((sheetEntries es).map (·.1)).Nodup) (e : Str × Str)
    (he : e ∈ sheetEntries es) (ht : ∀ r ∈ p.xlsx.rels, r.id = e.1 → r.type ≠ worksheetType) :
    readFile env lib search reMatch toInt a p = .error .keyError := by
  have hf : fileKind p.names = .ok .xlsx := by simp [fileKind, hp]
  unfold readFile
  rw [hf]
  simp only [readXlsx, hw, C52_chart_sheet p.xlsx.rels es hc hr hid e he ht]

/-! ## Examples -/

/-- The workbook of `exXlsxFile` with a sheet `B` before its sheet, which is called `C` here. -/
def exTwoSheets (kind : Str) : XlsxFile :=
  { exXlsxFile with
    rels := [⟨['r', '1'], kind, ['b']⟩, ⟨['r', '2'], worksheetType, ['s', '1']⟩]
    workbook := ⟨[.start tagSheet [(attName, ['B']), (attRId, ['r', '1'])], .close tagSheet,
      .start tagSheet [(attName, ['C']), (attRId, ['r', '2'])], .close tagSheet], false⟩ }

def exSheetRead (f : XlsxFile) (s : SheetArg) : Py (List Fetched) :=
  (readFile textEnv exLib (fun _ => none) (fun _ _ => .ok false) exInt { iter := { sheet := s } } ⟨[workbookXml], f, exFile⟩).map
    (·.arrays)

/-- The conditions of `C131_xlsx_partial` hold for the two files. -/
example : exXlsxFile.SheetAt 0 ['A'] ['x', 'l', '/', 's', '1'] ∧
    (exTwoSheets worksheetType).SheetAt 1 ['C'] ['x', 'l', '/', 's', '1'] := by
  have hc : ∀ es : List Xml, (∀ e ∈ es, match e with
      | .start _ a => (attrGet a attRId).isSome = true ∧ (attrGet a attName).isSome = true
      | _ => True) → SheetsComplete es := fun es h t a hm _ => h _ hm
  refine ⟨⟨_, fun _ => ['s', '1'], ['r', '1'], rfl, hc _ ?_, by decide +kernel, by decide +kernel, by decide +kernel,
      by decide +kernel, by decide +kernel, by decide +kernel⟩,
    ⟨_, fun r => if r = ['r', '1'] then ['b'] else ['s', '1'], ['r', '2'], rfl, hc _ ?_, by decide +kernel, by decide +kernel,
      by decide +kernel, by decide +kernel, by decide +kernel, by decide +kernel⟩⟩
  · intro e he
    simp only [List.mem_cons, List.not_mem_nil, or_false] at he
    rcases he with rfl | rfl
    · exact ⟨by decide, by decide⟩
    · trivial
  · intro e he
    simp only [List.mem_cons, List.not_mem_nil, or_false] at he
    rcases he with rfl | rfl | rfl | rfl
    · exact ⟨by decide, by decide⟩
    · trivial
    · exact ⟨by decide, by decide⟩
    · trivial

/-- The sheet is read alike from both, by position and by name; with a chart sheet it is not read. -/
example : (exSheetRead exXlsxFile (.index 0)).isOk = true ∧
    exSheetRead (exTwoSheets worksheetType) (.index 1) = exSheetRead exXlsxFile (.index 0) ∧
    exSheetRead (exTwoSheets worksheetType) (.name ['C']) = exSheetRead exXlsxFile (.index 0) ∧
    exSheetRead (exTwoSheets ['c', 'h', 'a', 'r', 't']) (.name ['C']) = .error .keyError ∧
    exSheetRead (exTwoSheets worksheetType) (.name ['A']) = .error .keyError := by decide +kernel

end Rxls
