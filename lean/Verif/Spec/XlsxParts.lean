import Verif.Model.Xlsx

/-! # Reference semantics of the other parts of an XLSX package -/

namespace Rxls

/-- Not a tag of a shared string element. -/
def Xml.noSi : Xml → Prop
  | .start t _ => t ≠ tagSi
  | .close t => t ≠ tagSi
  | .text _ => True

/-- An `si` element. -/
structure Si where
  attrs : List (Str × Str)
  body : List Xml

/-- Its events. -/
def Si.events (x : Si) : List Xml := .start tagSi x.attrs :: (x.body ++ [.close tagSi])

/-- The texts in it, in order. -/
def Si.texts (x : Si) : List Str := x.body.filterMap fun e => match e with | .text s => some s | _ => none

/-- The first text that is neither blank nor null, without surrounding whitespace. -/
def Si.entry (isNull : Str → Bool) (x : Si) : Option Str :=
  (x.texts.map pyStrip).find? fun t => t ≠ [] && !isNull t

/-- The custom number formats of a style sheet: `numFmt` elements with id and code. -/
def numFmts (es : List Xml) : List (Str × Str) := es.filterMap fun e => match e with
  | .start t a => if t = tagNumFmt then
      (attrGet a attNumFmtId).bind fun i => (attrGet a attFormatCode).map fun c => (i, c)
    else none
  | _ => none

/-- The cell formats: number format ids of the `xf` elements with an `xfId`. -/
def cellFmts (es : List Xml) : List Str := es.filterMap fun e => match e with
  | .start t a => if t = tagXf ∧ (attrGet a attXfId).isSome then attrGet a attNumFmtId else none
  | _ => none

/-- The attributes the reader asks for are there. -/
def StylesComplete (es : List Xml) : Prop := ∀ t a, Xml.start t a ∈ es →
  (t = tagNumFmt → (attrGet a attNumFmtId).isSome ∧ (attrGet a attFormatCode).isSome) ∧
  (t = tagXf → (attrGet a attXfId).isSome → (attrGet a attNumFmtId).isSome)

/-- Class of a number format. -/
inductive StyleClass where
  | numeric
  | temporal
  | other
  deriving DecidableEq, Repr

/-- Class of number format `y` (of number `n`) among custom formats `fs`, numeric winning over temporal. -/
def classOf (fs : List (Str × Str)) (y : Str) (n : Int) : StyleClass :=
  if (∃ c ∈ fs, c.1 = y ∧ fmtNumeric (beforeSemicolon c.2) = true) ∨ (∃ m ∈ numericStyles, (m : Int) = n) then .numeric
  else if (∃ c ∈ fs, c.1 = y ∧ fmtTemporal (beforeSemicolon c.2) = true) ∨ (∃ m ∈ temporalStyles, (m : Int) = n) then
    .temporal
  else .other

/-- Type tag of a class, if there is one. -/
def StyleClass.tag : StyleClass → Option Nat
  | .numeric => some 0x20
  | .temporal => some 0x24
  | .other => none

/-- The sheets of a workbook part: relationship id and name of the `sheet` elements. -/
def sheetEntries (es : List Xml) : List (Str × Str) := es.filterMap fun e => match e with
  | .start t a => if t = tagSheet then
      (attrGet a attRId).bind fun i => (attrGet a attName).map fun c => (i, c)
    else none
  | _ => none

/-- The attributes the reader asks for are there. -/
def SheetsComplete (es : List Xml) : Prop := ∀ t a, Xml.start t a ∈ es → t = tagSheet →
  (attrGet a attRId).isSome ∧ (attrGet a attName).isSome

end Rxls
