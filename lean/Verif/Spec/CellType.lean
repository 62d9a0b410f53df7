import Verif.Spec.XlsxParts

/-! # What the attribute `t` of a cell says (ISO/IEC 29500-1, 18.18.11) -/

namespace Rxls

/-- What a cell holds. -/
inductive CellKind where
  | shared
  | text
  | number
  | moment
  | truth
  deriving DecidableEq, Repr

/-- The kind of a cell, from its attribute `t` and the class of its number format; `none`: not a value of the standard. -/
def declaredKind (t : Option Str) (cls : StyleClass) : Option CellKind :=
  match t with
  | none => some (if cls = .temporal then .moment else .number)
  | some v =>
    if v = ['n'] then some (if cls = .temporal then .moment else .number)
    else if v = ['s'] then some .shared
    else if v = ['s', 't', 'r'] ∨ v = ['i', 'n', 'l', 'i', 'n', 'e', 'S', 't', 'r'] ∨ v = ['e'] then some .text
    else if v = ['b'] then some .truth
    else if v = ['d'] then some .moment
    else none

/-- The type under which the columns of the package take a cell of this kind. -/
def CellKind.columnType : CellKind → Nat
  | .shared => 0x11
  | .text => 0x18
  | .number => 0x20
  | .moment => 0x24
  | .truth => 0x22

/-- Two events differ in the attribute `t` of a cell at most, and are shared strings both or neither. -/
inductive Xml.Retyped : Xml → Xml → Prop
  | same (e : Xml) : Xml.Retyped e e
  | cell (a a' : List (Str × Str)) (hr : attrGet a attR = attrGet a' attR) (hs : attrGet a attS = attrGet a' attS)
      (ht : attrGet a attT = some ['s'] ↔ attrGet a' attT = some ['s']) : Xml.Retyped (.start tagC a) (.start tagC a')

end Rxls
