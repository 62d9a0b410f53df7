import Verif.Spec.XlsxParts
import Verif.Model.ReadXlsx

/-! # The optional attribute `numFmtId` of a cell format (ISO/IEC 29500-1, 18.8.45)

`CT_Xf` declares `numFmtId` as optional, `CT_NumFmt` its two attributes as required.
-/

namespace Rxls

/-- Every number format that is declared has its id and its code, as the standard requires. -/
def FmtsComplete (es : List Xml) : Prop := ∀ a, Xml.start tagNumFmt a ∈ es →
  (attrGet a attNumFmtId).isSome ∧ (attrGet a attFormatCode).isSome

/-- The format with id 0 (General) where none is given. -/
def Xml.filled : Xml → Xml
  | .start t a => if t = tagXf ∧ attrGet a attNumFmtId = none then .start t (a ++ [(attNumFmtId, ['0'])]) else .start t a
  | e => e

/-- A styles part with the ids filled in. -/
def XmlDoc.filled (d : XmlDoc) : XmlDoc := ⟨d.events.map Xml.filled, d.bad⟩

end Rxls
