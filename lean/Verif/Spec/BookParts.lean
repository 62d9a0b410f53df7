import Verif.Spec.InCell

/-! # What counts of the parts of a workbook other than its sheets -/

namespace Rxls

/-! ## XLSX -/

/-- The names of the sheets and their links (ISO/IEC 29500-1, 18.2.19), in the order of the part.  Views, defined names,
properties of the workbook, the state of a sheet (hidden or not) and its number are left out. -/
def bookSheets (es : List Xml) : List (Option Str × Option Str) :=
  es.filterMap fun e => match e with
    | .start t a => if t = tagSheet then some (attrGet a attName, attrGet a attRId) else none
    | _ => none

/-- The number formats (18.8.30) and the format ids of the cell formats that belong to a cell style (18.8.45).  Fonts,
fills, borders, alignment, colours, the styles themselves and the like are left out. -/
def bookFormats (es : List Xml) : List ((Option Str × Option Str) ⊕ Option Str) :=
  es.filterMap fun e => match e with
    | .start t a =>
      if t = tagNumFmt then some (.inl (attrGet a attFormatCode, attrGet a attNumFmtId))
      else if t = tagXf ∧ (attrGet a attXfId).isSome then some (.inr (attrGet a attNumFmtId))
      else none
    | _ => none

/-- The items of the shared strings and the texts between their beginnings and ends (18.4.8); elements inside of the
items, such as properties of runs, and all attributes are left out, as are texts of blanks only. -/
def bookTexts (es : List Xml) : List Xml :=
  es.filterMap fun e => match e with
    | .start t _ => if t = tagSi then some (.start t []) else none
    | .text s => if s.all pySpace then none else some (.text s)
    | .close t => if t = tagSi then some (.close t) else none

/-- Two parts that say the same, one part as far as `say` goes. -/
def XmlDoc.SaysSame {α : Type} (say : List Xml → α) (d d' : XmlDoc) : Prop :=
  d.bad = d'.bad ∧ say d.events = say d'.events

/-- The links to worksheets. -/
def bookLinks (rels : List Relationship) : List (Str × Str) :=
  (rels.filter fun r => r.type = worksheetType).map fun r => (r.id, r.target)

/-- XLSX files that say the same: in every part, what is read of it. -/
structure XlsxFile.SaysSame (f g : XlsxFile) : Prop where
  links : bookLinks f.rels = bookLinks g.rels
  sheets : f.workbook.SaysSame bookSheets g.workbook
  formats : Option.Rel (XmlDoc.SaysSame bookFormats) f.styles g.styles
  texts : Option.Rel (XmlDoc.SaysSame bookTexts) f.shared g.shared
  values : ∀ n, Option.Rel XmlDoc.SameValues (f.parts n) (g.parts n)

/-! ## XLSB -/

/-- The sheets of a workbook part (`[MS-XLSB]` 2.4.303): the link and the name behind the state of the sheet and its
number, eight bytes that only have to be there. -/
def sheetSays (rs : List Record) : List (Bool × Bytes) :=
  (rs.filter fun r => r.recId = 412).map fun r => (decide (8 ≤ r.data.length), r.data.drop 8)

/-- The cell formats (2.4.834), of which only the link to a style and the format id count, and the number formats
(2.4.656), in their orders. -/
def formatSays (rs : List Record) : List Bytes × List Bytes :=
  ((rs.filter fun r => r.recId = 47).map fun r => r.data.take 4, (rs.filter fun r => r.recId = 44).map Record.data)

/-- Number of characters of a shared string, the four bytes behind the flags (2.5.122). -/
def Record.textCount (r : Record) : Nat :=
  match (r.data.drop 1).take 4 with
  | [a, b, c, d] => a.toNat + 256 * b.toNat + 65536 * c.toNat + 16777216 * d.toNat
  | _ => 0

/-- The shared strings (2.4.825): the text between the flags and the formatting of runs and readings. -/
def textSays (rs : List Record) : List Bytes :=
  (rs.filter fun r => r.recId = 19).map fun r => (r.data.drop 1).take (4 + 2 * r.textCount)

/-- The same part, or parts written from records that say the same. -/
def RecordsSaySame {α : Type} (say : List Record → α) (b b' : Bytes) : Prop :=
  b' = b ∨ ∃ rs rs' : List Record, writeAll rs [] = .ok b ∧ writeAll rs' [] = .ok b' ∧ say rs = say rs'

@[inherit_doc XlsxFile.SaysSame] structure XlsbFile.SaysSame (f g : XlsbFile) : Prop where
  links : f.rels.map (fun r => (r.id, r.target)) = g.rels.map fun r => (r.id, r.target)
  sheets : RecordsSaySame sheetSays f.workbook g.workbook
  formats : Option.Rel (RecordsSaySame formatSays) f.styles g.styles
  texts : Option.Rel (RecordsSaySame textSays) f.shared g.shared
  values : ∀ n, Option.Rel SameValueRecords (f.parts n) (g.parts n)

end Rxls
