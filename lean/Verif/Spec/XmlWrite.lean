import Verif.Spec.XmlText

/-! # A reference writer of XML documents -/

namespace Rxls

/-- A character of a text, and of an attribute value, with references where they are needed. -/
def textForm (c : Char) : CForm :=
  if c = '<' ∨ c = '>' ∨ c = '&' then .named c
  else if c = '\r' then .dec [1, 3]
  else .raw c
@[inherit_doc textForm] def attForm (c : Char) : CForm :=
  if c = '<' ∨ c = '>' ∨ c = '&' ∨ c = '"' then .named c
  else if c = '\t' then .dec [9]
  else if c = '\n' then .dec [1, 0]
  else if c = '\r' then .dec [1, 3]
  else .raw c

/-- An event as pieces of a document. -/
def Xml.pieces : Xml → List Piece
  | .start t as => [.start t (as.map fun a => { name := a.1, value := a.2.map attForm }) []]
  | .text s => s.map fun c => .char (textForm c)
  | .close t => [.close t []]

/-- The document with these events. -/
def xmlForm (es : List Xml) : XmlForm := { body := es.flatMap Xml.pieces }

/-- Its bytes. -/
def xmlBytes (es : List Xml) : Bytes := (xmlForm es).text.flatMap String.utf8EncodeChar

/-- An event that can be written: names are names, attribute names are different, texts are not empty, fit in the buffer
of pyexpat (8192 bytes) and have only characters that XML has. -/
def Xml.Writable : Xml → Prop
  | .start t as => XmlName t ∧ (as.map (·.1)).Nodup ∧ ∀ a ∈ as, XmlName a.1 ∧ Chars a.2
  | .text s => s ≠ [] ∧ Chars s ∧ (s.flatMap String.utf8EncodeChar).length ≤ 8192
  | .close t => XmlName t

/-- The events close the open elements `stack`, and nothing comes after that. -/
def Closes : List Str → List Xml → Prop
  | stack, [] => stack = []
  | [], _ :: _ => False
  | t :: stack, .start u _ :: es => Closes (u :: t :: stack) es
  | t :: stack, .close u :: es => u = t ∧ Closes stack es
  | t :: stack, .text _ :: es => Closes (t :: stack) es

/-- No text follows another. -/
def NoTwoTexts : List Xml → Prop
  | .text _ :: .text _ :: _ => False
  | _ :: es => NoTwoTexts es
  | [] => True

/-- The events of a document with one root element. -/
structure XmlTree (es : List Xml) : Prop where
  writable : ∀ e ∈ es, e.Writable
  root : ∃ t as r, es = .start t as :: r ∧ Closes [t] r
  texts : NoTwoTexts es

/-- pyexpat's buffer: a text of at most 8192 bytes is delivered in one piece. -/
def Buffered (pieces : Str → List Str) : Prop :=
  ∀ s, (s.flatMap String.utf8EncodeChar).length ≤ 8192 → pieces s = [s]

end Rxls
