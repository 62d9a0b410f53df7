import Verif.Model.Archive
import Verif.Spec.XmlWrite

/-! # What is in an archive -/

namespace Rxls

/-- The bytes of a text in UTF-8, with or without the byte order mark. -/
def utf8Bytes (mark : Bool) (s : Str) : Bytes :=
  (if mark then [0xEF, 0xBB, 0xBF] else []) ++ s.flatMap String.utf8EncodeChar

/-- The bytes are a well-formed XML document in UTF-8 that means these events, however it is written. -/
def IsXml (pieces : Str → List Str) (b : Bytes) (es : List Xml) : Prop :=
  ∃ (x : XmlForm) (s : Str) (mark : Bool), x.Ok ∧ LineEnds s x.text ∧ b = utf8Bytes mark s ∧ x.events pieces = es

/-- The archive has one part with this name, and it has this content. -/
def Archive.Has (z : Archive) (name : Str) (b : Bytes) : Prop := z.filter (fun e => e.1 = name) = [(name, b)]

/-- The archive has one part with this name, and it is an XML document with these events. -/
def Archive.HasXml (pieces : Str → List Str) (z : Archive) (name : Str) (es : List Xml) : Prop :=
  ∃ b, z.Has name b ∧ IsXml pieces b es

/-- The relationships in a relationship part. -/
def relationships (es : List Xml) : List Relationship := es.filterMap fun e => match e with
  | .start t a => if t = tagRelationship then
      (attrGet a attId).bind fun i => (attrGet a attType).bind fun t => (attrGet a attTarget).map fun g => ⟨i, lastSegment t, g⟩
    else none
  | _ => none

/-- Every relationship has its attributes. -/
def RelsComplete (es : List Xml) : Prop := ∀ t a, Xml.start t a ∈ es → t = tagRelationship →
  (attrGet a attId).isSome ∧ (attrGet a attType).isSome ∧ (attrGet a attTarget).isSome

/-- An XLSX archive has the parts of a file. -/
structure Archive.HasXlsx (pieces : Str → List Str) (z : Archive) (f : XlsxFile) : Prop where
  rels : ∃ es, z.HasXml pieces xlsxRelsName es ∧ RelsComplete es ∧ f.rels = relationships es
  workbook : z.HasXml pieces workbookXml f.workbook.events ∧ f.workbook.bad = false
  shared : ∀ d, f.shared = some d → z.HasXml pieces xlsxSharedName d.events ∧ d.bad = false
  styles : ∀ d, f.styles = some d → z.HasXml pieces xlsxStylesName d.events ∧ d.bad = false
  parts : ∀ n d, f.parts n = some d → z.HasXml pieces n d.events ∧ d.bad = false

/-- An XLSB archive has the parts of a file. -/
structure Archive.HasXlsb (pieces : Str → List Str) (z : Archive) (f : XlsbFile) : Prop where
  notXlsx : workbookXml ∉ z.map (·.1)
  rels : ∃ es, z.HasXml pieces xlsbRelsName es ∧ RelsComplete es ∧ f.rels = relationships es
  workbook : z.Has workbookBin f.workbook
  shared : ∀ d, f.shared = some d → z.Has xlsbSharedName d
  styles : ∀ d, f.styles = some d → z.Has xlsbStylesName d
  parts : ∀ n d, f.parts n = some d → z.Has n d

end Rxls
