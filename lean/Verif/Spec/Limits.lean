import Verif.Model.ReadFile

/-! # What counts as a limit -/

namespace Rxls

/-- The same columns are listed in both, as far as a cell can stand in them: column numbers are at least -1 (a cell of
an XLSX file whose reference has no letters). -/
def SameSkipped (s s' : List Int) : Prop := ∀ k : Int, -1 ≤ k → (k ∈ s ↔ k ∈ s')

/-- How many rows a sheet has: ends of `row` elements, row records. -/
def XmlDoc.rowCount (doc : XmlDoc) : Nat := doc.events.countP (· = .close tagRow)
@[inherit_doc XmlDoc.rowCount] def biffRows (part : Bytes) : Nat :=
  (scanBiff (some sheetIds) part).countP (·.recId = 0)

/-- All of `n` rows are read: there is no limit (without `skip_rows` and `take_rows_non_empty`), or it is not less
than `n`. -/
def IterArgs.Reaches (ia : IterArgs) (n : Nat) : Prop :=
  ia.skipRows = 0 ∧ ia.takeRows = 0 ∧ ia.keepEmpty = false ∨
    0 ≤ ia.skipRows ∧ 0 ≤ ia.takeRows ∧ (n : Int) ≤ ia.takeRows + ia.skipRows

/-- Every sheet of the file has at most so many rows. -/
def Package.RowsUpTo (p : Package) (n : Nat) : Prop :=
  (∀ path doc, p.xlsx.parts path = some doc → doc.rowCount ≤ n) ∧
    ∀ path part, p.xlsb.parts path = some part → biffRows part ≤ n

end Rxls
