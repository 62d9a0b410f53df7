import Verif.Spec.Calendar
import Verif.Model.Xlsx

/-!
# The 1904 date system

A workbook may say that its serials count from 1904-01-01: ECMA-376 part 1, 18.2.28 (`workbookPr`, attribute
`date1904`) and 18.17.4.1; MS-XLSB 2.4.822 (`BrtWbProp`, lowest bit `f1904`).
-/

namespace Rxls

/-- The date shown for a whole serial of the 1904 date system. -/
def excelDate1904 (n : Nat) : Date := nextDay^[n] ⟨1904, 1, 1⟩

/-- The element with the properties of a workbook. -/
def tagWorkbookPr : Str := ['w', 'o', 'r', 'k', 'b', 'o', 'o', 'k', 'P', 'r']
@[inherit_doc tagWorkbookPr] def attDate1904 : Str := ['d', 'a', 't', 'e', '1', '9', '0', '4']

/-- Set the flag in every `workbookPr`. -/
def markEvent : Xml → Xml
  | .start t a => if t = tagWorkbookPr then .start t ((attDate1904, ['1']) :: a) else .start t a
  | e => e

@[inherit_doc markEvent] def markDate1904 (d : XmlDoc) : XmlDoc := { d with events := d.events.map markEvent }

end Rxls
