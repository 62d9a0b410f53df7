import Verif.Spec.XlsxParts
import Verif.Spec.XmlWrite
import Verif.Model.ReadXlsx

/-! # Texts longer than the buffer of the XML parser -/

namespace Rxls

/-- Length in the file, in bytes. -/
def byteLen (s : Str) : Nat := (s.flatMap String.utf8EncodeChar).length

/-- pyexpat's buffer of 8192 bytes: a text that fits comes in one piece; a longer one in pieces that fit, none lost. -/
structure Buffers (pieces : Str → List Str) : Prop where
  short : ∀ s, byteLen s ≤ 8192 → pieces s = [s]
  fit : ∀ s, ∀ p ∈ pieces s, byteLen p ≤ 8192
  whole : ∀ s, (pieces s).flatten = s

/-- Of texts that follow each other, those up to the first that is neither blank nor null; `done`: it has been passed. -/
def firstPieces (isNull : Str → Bool) : Bool → List Xml → List Xml
  | _, [] => []
  | done, .text s :: es =>
    if done then firstPieces isNull true es
    else .text s :: firstPieces isNull (decide (pyStrip s ≠ []) && !isNull (pyStrip s)) es
  | _, .start t a :: es => .start t a :: firstPieces isNull false es
  | _, .close t :: es => .close t :: firstPieces isNull false es

/-- The part with these texts only. -/
def XmlDoc.firstPieces (isNull : Str → Bool) (d : XmlDoc) : XmlDoc := { d with events := Rxls.firstPieces isNull false d.events }

/-- The file with these texts only. -/
def XlsxFile.firstPieces (isNull : Str → Bool) (f : XlsxFile) : XlsxFile :=
  { f with
    shared := f.shared.map (XmlDoc.firstPieces isNull)
    parts := fun n => (f.parts n).map (XmlDoc.firstPieces isNull) }

end Rxls
