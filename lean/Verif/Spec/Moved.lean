import Verif.Spec.Columns
import Verif.Spec.Utf16
import Verif.Model.ReadFile
import Verif.Spec.Biff
import Mathlib.Data.List.Forall2
import Mathlib.Order.Monotone.Defs

/-!
# A sheet whose columns stand elsewhere

Column `k` of the one sheet is column `f k` of the other, where `f` keeps the order: inserting empty columns before or
between the others, or deleting empty ones.
-/

namespace Rxls

/-- XML events of the two sheets: only the references of the cells differ, `B2` is there and `D2` here, and only in
the letters that matter. -/
inductive Xml.Moved (f : Int → Int) : Xml → Xml → Prop where
  | other (e : Xml) (h : ∀ attrs, e ≠ .start tagC attrs) : Xml.Moved f e e
  | noRef (attrs : List (Str × Str)) (h : attrGet attrs attR = none) :
      Xml.Moved f (.start tagC attrs) (.start tagC attrs)
  | cell (attrs attrs' : List (Str × Str)) (r r' : Str) (n n' : Nat) (d d' : Bytes)
      (hr : attrGet attrs attR = some r) (hr' : attrGet attrs' attR = some r')
      (hn : r.flatMap String.utf8EncodeChar = colName n ++ d) (hd : IsDigits d)
      (hn' : r'.flatMap String.utf8EncodeChar = colName n' ++ d') (hd' : IsDigits d')
      (hf : (n' : Int) = f n)
      (ht : attrGet attrs attT = attrGet attrs' attT) (hs : attrGet attrs attS = attrGet attrs' attS) :
      Xml.Moved f (.start tagC attrs) (.start tagC attrs')

/-- Records of the two sheets: only the column numbers of the cells differ, the first four bytes. -/
inductive Record.Moved (f : Int → Int) : Record → Record → Prop where
  | other (r : Record) (h : r.recId ∉ [2, 4, 5, 6, 7, 8, 9, 10]) : Record.Moved f r r
  | cell (i n n' : Nat) (rest : Bytes) (hn : n < 2 ^ 32) (hn' : n' < 2 ^ 32) (hf : (n' : Int) = f n) :
      Record.Moved f ⟨i, le32 n ++ rest⟩ ⟨i, le32 n' ++ rest⟩

/-- Worksheet parts of XLSX. -/
def XmlDoc.Moved (f : Int → Int) (d d' : XmlDoc) : Prop := d.bad = d'.bad ∧ List.Forall₂ (Xml.Moved f) d.events d'.events

/-- Worksheet parts of XLSB: streams of records. -/
def PartMoved (f : Int → Int) (b b' : Bytes) : Prop :=
  ∃ rs rs', writeAll rs [] = .ok b ∧ writeAll rs' [] = .ok b' ∧ List.Forall₂ (Record.Moved f) rs rs'

/-- The two files: every part that may be a worksheet is moved, the rest is the same. -/
def Package.Moved (f : Int → Int) (p p' : Package) : Prop :=
  p.names = p'.names ∧
  (p.xlsx.rels = p'.xlsx.rels ∧ p.xlsx.workbook = p'.xlsx.workbook ∧ p.xlsx.shared = p'.xlsx.shared ∧
    p.xlsx.styles = p'.xlsx.styles ∧ ∀ n, Option.Rel (XmlDoc.Moved f) (p.xlsx.parts n) (p'.xlsx.parts n)) ∧
  (p.xlsb.rels = p'.xlsb.rels ∧ p.xlsb.workbook = p'.xlsb.workbook ∧ p.xlsb.shared = p'.xlsb.shared ∧
    p.xlsb.styles = p'.xlsb.styles ∧ ∀ n, Option.Rel (PartMoved f) (p.xlsb.parts n) (p'.xlsb.parts n))

/-- `lookup_head` for the other file. -/
def Lookup.move (f : Int → Int) : Lookup → Lookup
  | .column k => .column (f k)
  | l => l

/-- The arguments for the other file: the columns left out and the column of the header are meant there. -/
def FileArgs.move {D : Type} (f : Int → Int) (a : FileArgs D) : FileArgs D :=
  { a with
    iter := { a.iter with skipCols := a.iter.skipCols.map f }
    table := { a.table with lookup := a.table.lookup.move f } }

end Rxls
