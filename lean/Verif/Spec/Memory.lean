import Verif.Spec.Options

/-! # References to the shared strings that can be followed -/

namespace Rxls

/-- The computation reads no memory outside its buffers; it may well raise. -/
abbrev InBounds {α : Type} (x : Py α) : Prop := x ≠ .error .undefinedBehaviour

/-- The cell is a reference to the shared strings. -/
def IsShared (c : Cell) : Prop := c.xdt.testBit 4 = true ∧ c.xdt.testBit 0 = true

/-- The references of XLSX cells, where they are numbers at all, are numbers of one of `n` strings. -/
def RefsXlsx (pyInt : Str → Option Nat) (n : Nat) (cells : List Cell) : Prop :=
  ∀ c ∈ cells, IsShared c → ∀ s i, c.val = .text s → pyInt s = some i → i < n

/-- The references of XLSB cells are complete, four bytes, and are numbers of one of `n` strings. -/
def RefsXlsb (n : Nat) (cells : List Cell) : Prop :=
  ∀ c ∈ cells, IsShared c → ∃ b0 b1 b2 b3 : UInt8, c.val = .bytes [b0, b1, b2, b3] ∧
    b0.toNat + 256 * b1.toNat + 65536 * b2.toNat + 16777216 * b3.toNat < n

/-- The references of a file can be followed. -/
def Package.RefsOk {D : Type} (pyInt : Str → Option Nat) (toInt : Str → Option Int) (a : FileArgs D) (p : Package) : Prop :=
  (fileKind p.names = .ok .xlsx →
    ∀ t, p.xlsx.strings (skipPredicate errorStringsXlsx a.nulls) = .ok t → RefsXlsx pyInt t.1.length (p.cellsOf toInt a)) ∧
  (fileKind p.names = .ok .xlsb →
    ∀ t, p.xlsb.strings (skipPredicate errorStringsXlsb a.nulls) = .ok t → RefsXlsb t.1.length (p.cellsOf toInt a))

end Rxls
