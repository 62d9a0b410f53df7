import Verif.Model.Xlsb
import Verif.Spec.Utf16

/-!
# Reference semantics of a worksheet: rows of cells
-/

namespace Rxls

/-- Column, type tag and value of a cell. -/
abbrev Item := Int × Nat × Raw

/-- One row of an XLSB sheet: the payload of its row record and its cell records. -/
structure SheetRow where
  hdr : Bytes
  cells : List Record

/-- The records of an XLSB sheet: something before the first row, the rows, the end of the data with what
comes after. -/
structure SheetParts where
  pre : List Record
  rows : List SheetRow
  tail : List Record

/-- The stream of records. -/
def SheetParts.records (p : SheetParts) : List Record :=
  p.pre ++ (p.rows.flatMap (fun r => ⟨0, r.hdr⟩ :: r.cells) ++ p.tail)

/-- Row records (id 0) only at the start of rows; the end of the data (id 402) not inside the rows. -/
structure SheetParts.Ok (p : SheetParts) : Prop where
  pre : ∀ r ∈ p.pre, r.recId ≠ 0
  cells : ∀ row ∈ p.rows, ∀ r ∈ row.cells, r.recId ≠ 0 ∧ r.recId ≠ 402
  tail : p.tail = [] ∨ ∃ e post, p.tail = e :: post ∧ e.recId = 402
  rows : p.rows = [] → p.tail = []

/-- The values of a row, record by record; the first exception wins. -/
def rowItems (f : Record → Py (Option Item)) : List Record → Py (List Item)
  | [] => .ok []
  | r :: rs =>
    match f r with
    | .error e => .error e
    | .ok none => rowItems f rs
    | .ok (some i) =>
      match rowItems f rs with
      | .error e => .error e
      | .ok is => .ok (i :: is)

/-- The values of all rows. -/
def sheetItems (f : Record → Py (Option Item)) : List SheetRow → Py (List (List Item))
  | [] => .ok []
  | r :: rs =>
    match rowItems f r.cells with
    | .error e => .error e
    | .ok is =>
      match sheetItems f rs with
      | .error e => .error e
      | .ok l => .ok (is :: l)

/-- Cells with their row numbers: all rows are counted, or only those with a value. -/
def numbered (keepEmpty : Bool) (rows : List (List Item)) : List Cell :=
  ((if keepEmpty then rows else rows.filter (· ≠ [])).zipIdx).flatMap fun p =>
    p.1.map fun i => ⟨p.2, i.1, i.2.1, i.2.2⟩

/-- The cells among the events. -/
def evCells (evs : List Ev) : List Cell :=
  evs.filterMap fun e => match e with | .cell c => some c | .callback => none

/-- The number of callbacks among the events. -/
def evCallbacks (evs : List Ev) : Nat := evs.count .callback

/-! ## Cell records as MS-XLSB lays them out -/

/-- 64-bit little-endian field. -/
def le64 (n : Nat) : Bytes := le32 n ++ le32 (n / 4294967296)

/-- What a cell holds. -/
inductive Content where
  | rk (w : Nat)        -- a 32-bit RK number
  | real (w : Nat)      -- the bits of a double
  | bool (b : Bool)
  | text (s : Str)
  | shared (i : Nat)    -- index of a shared string
  deriving DecidableEq, Repr

/-- Record ids for a content: plain cells, and formula results (8, 9, 10). -/
def Content.ids : Content → List Nat
  | .rk _ => [2]
  | .real _ => [5, 9]
  | .bool _ => [4, 10]
  | .text _ => [6, 8]
  | .shared _ => [7]

/-- Bytes of the content. -/
def Content.bytes : Content → Bytes
  | .rk w => le32 w
  | .real w => le64 w
  | .bool b => [if b then 1 else 0]
  | .text s => wideString s
  | .shared i => le32 i

/-- Contents the format can carry (and that survive the decoder: no leading byte order mark, C09). -/
def Content.Fits : Content → Prop
  | .rk w => w < 2 ^ 32
  | .real w => w < 2 ^ 64
  | .bool _ => True
  | .text s => NoMark s ∧ (utf16 s).length < 2 ^ 32
  | .shared i => i < 2 ^ 32

/-- Type tag for the content under a cell format that is temporal or not. -/
def Content.tag (temporal : Bool) : Content → Nat
  | .rk _ => if temporal then 0x25 else 0x21
  | .real _ => if temporal then 0x24 else 0x28
  | .bool _ => 0x22
  | .text _ => 0x18
  | .shared _ => 0x11

/-- The value handed to the column. -/
def Content.raw : Content → Raw
  | .text s => .text s
  | c => .bytes c.bytes

/-- The content is dropped as null. -/
def Content.dropped (isNull : Str → Bool) (nullShared : List Bytes) : Content → Bool
  | .text s => isNull s
  | .shared i => nullShared.contains (le32 i)
  | _ => false

/-- Payload of a cell record: column, 3-byte cell format, flags, content, and what may follow (a formula). -/
def cellPayload (col : Nat) (style : Bytes) (flags : UInt8) (c : Content) (extra : Bytes) : Bytes :=
  le32 col ++ (style ++ (flags :: (c.bytes ++ extra)))

/-! ## Other records -/

/-- 16-bit little-endian field. -/
def le16 (n : Nat) : Bytes := [UInt8.ofNat (n % 256), UInt8.ofNat (n / 256 % 256)]

/-- BrtSSTItem: flags, the text, formatting runs. -/
def sstItem (flags : UInt8) (s : Str) (runs : Bytes) : Record := ⟨19, flags :: (wideString s ++ runs)⟩

/-- A cell format as BrtXF holds it: parent (0xFFFF for a style format), number format id, the rest. -/
structure Xf where
  parent : Nat
  fmt : Nat
  rest : Bytes

@[inherit_doc Xf] def Xf.record (x : Xf) : Record := ⟨47, le16 x.parent ++ (le16 x.fmt ++ x.rest)⟩

/-- BrtFmt: id and code of a custom number format. -/
def fmtRecord (p : Nat × Str) : Record := ⟨44, le16 p.1 ++ wideString p.2⟩

/-- BrtBundleSh: state, tab id, relationship id, name. -/
structure SheetEntry where
  state : Nat
  tab : Nat
  rel : Str
  name : Str

@[inherit_doc SheetEntry] def SheetEntry.record (e : SheetEntry) : Record :=
  ⟨412, le32 e.state ++ le32 e.tab ++ wideString e.rel ++ wideString e.name⟩

/-- The fields fit and the texts survive the decoder (C09). -/
def SheetEntry.Fits (e : SheetEntry) : Prop :=
  e.state < 2 ^ 32 ∧ e.tab < 2 ^ 32 ∧ NoMark e.rel ∧ NoMark e.name ∧
    (utf16 e.rel).length < 0xFFFFFFFF ∧ (utf16 e.name).length < 0xFFFFFFFF

end Rxls
