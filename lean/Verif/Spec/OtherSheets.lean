import Verif.Spec.XlsxParts
import Verif.Spec.Sheet
import Verif.Model.ReadFile

/-! # One sheet of a workbook -/

namespace Rxls

/-- All sheets of the XLSX workbook are worksheets with ids and names of their own, and the one at position `i` is called
`name` and stored in the part `path`. -/
def XlsxFile.SheetAt (f : XlsxFile) (i : Nat) (name path : Str) : Prop :=
  ∃ (es : List Xml) (target : Str → Str) (id : Str), f.workbook = ⟨es, false⟩ ∧ SheetsComplete es ∧
    (f.rels.map (·.id)).Nodup ∧ ((sheetEntries es).map (·.1)).Nodup ∧ ((sheetEntries es).map (·.2)).Nodup ∧
    (∀ e ∈ sheetEntries es, ⟨e.1, worksheetType, target e.1⟩ ∈ f.rels) ∧
    (sheetEntries es)[i]? = some (id, name) ∧ path = xlPrefix ++ target id

/-- All sheets of the XLSB workbook have relationships and names of their own, and the one at position `i` is called
`name` and stored in the part `path`.  Chart sheets may be among them. -/
def XlsbFile.SheetAt (f : XlsbFile) (i : Nat) (name path : Str) : Prop :=
  ∃ (es : List SheetEntry) (target : Str → Str) (e : SheetEntry), scanBiff (some [412]) f.workbook = es.map SheetEntry.record ∧
    (∀ e ∈ es, e.Fits) ∧ (∀ e ∈ es, (f.rels.find? fun x => x.id = e.rel).map (·.target) = some (target e.rel)) ∧
    (es.map (·.name)).Nodup ∧ es[i]? = some e ∧ e.name = name ∧ path = xlPrefix ++ target e.rel

/-- The argument `sheet` means the sheet at position `i` with this name. -/
def SheetArg.Means (s : SheetArg) (i : Nat) (name : Str) : Prop := s = .index i ∨ s = .name name

end Rxls
