import Verif.Model.Series
import Verif.Spec.Chunk

/-!
# Reference semantics of a column under construction
-/

namespace Rxls

/-- Type and payload at row `r`: those of the first cell at or below row `r`, if it is at row `r`; nothing
if a cell further down came first or none came. -/
def rawAt (cs : List Cell) (r : Nat) : Option (Nat × Raw) :=
  match cs.find? fun c => decide (r ≤ c.row) with
  | some c => if c.row = r then some (c.xdt, c.val) else none
  | none => none

/-- Number of rows: the last row + 1. -/
def height (cs : List Cell) : Nat := (cs.map fun c => c.row + 1).foldr max 0

/-- The rows of the column. -/
def rawColumn (cs : List Cell) : List (Option (Nat × Raw)) := (List.range (height cs)).map (rawAt cs)

/-- A stretch of rows: empty ones, or a run of values of one type. -/
inductive Stretch where
  | gap (n : Nat)
  | run (xdt : Nat) (vals : List Raw)

/-- The rows of a stretch. -/
def Stretch.rows : Stretch → List (Option (Nat × Raw))
  | .gap n => List.replicate n none
  | .run x vs => vs.map fun v => some (x, v)

/-- Type tag of the rows of a stretch, if any. -/
def Stretch.tag : Stretch → Option Nat
  | .gap _ => none
  | .run x _ => some x

/-- The chunk holds this stretch. -/
def Stretch.Is (env : Env) (binary : Bool) (shared : List (Option Str)) : Stretch → Chunk → Prop
  | .gap n, c => 0 < n ∧ c = Chunk.nulls n
  | .run x vs, c => vs ≠ [] ∧ makeChunk env binary shared x vs = .ok c

/-- The kind of cells with a type tag. -/
def tagKind (xdt : Nat) : Cls :=
  if xdt = 0x18 ∨ xdt = 0x11 then .utf8 else if xdt = 0x24 ∨ xdt = 0x25 then .temp else .nums

/-- Value of a cell of an XLSB sheet with a valid payload: a text, a 4-byte index into the shared
strings, a 4-byte RK number, a boolean byte, an 8-byte double; 0x24 and 0x25 are moments. -/
def xlsbValue (shared : List (Option Str)) (xdt : Nat) : Raw → Option (Option Val)
  | .text s => if xdt = 0x18 then some (some (.str s)) else none
  | .bytes b =>
    if xdt = 0x11 ∧ b.length = 4 then (shared[leNat b]?).map (Option.map .str)
    else if xdt = 0x21 ∧ b.length = 4 then some (some (.f8 (rkToF8 (BitVec.ofNat 32 (leNat b)))))
    else if xdt = 0x25 ∧ b.length = 4 then some (some (.ts (f8ToMsWin (rkToF8 (BitVec.ofNat 32 (leNat b))))))
    else if xdt = 0x22 ∧ b.length = 1 then some (some (.f8 (.fin (leNat b : ℚ))))
    else if xdt = 0x28 ∧ b.length = 8 then some (some (.f8 (F64.ofBits (leNat b))))
    else if xdt = 0x24 ∧ b.length = 8 then some (some (.ts (f8ToMsWin (F64.ofBits (leNat b)))))
    else none

/-- Value of a cell of an XLSX sheet with a valid text. -/
def xlsxValue (env : Env) (shared : List (Option Str)) (xdt : Nat) : Raw → Option (Option Val)
  | .bytes _ => none
  | .text s =>
    if xdt = 0x18 then some (some (.str s))
    else if xdt = 0x11 then
      (env.pyInt s).bind fun n => if n < 2 ^ 32 then (shared[n]?).map (Option.map .str) else none
    else if xdt = 0x20 then (env.pyFloat s).map fun x => some (.f8 x)
    else if xdt = 0x24 then (env.pyFloat s).map fun x => some (.ts (f8ToMsWin x))
    else none

/-- Value of a cell of either kind of sheet. -/
def rawValue (env : Env) (binary : Bool) (shared : List (Option Str)) (xdt : Nat) (v : Raw) : Option (Option Val) :=
  if binary then xlsbValue shared xdt v else xlsxValue env shared xdt v

/-- Value of a row. -/
def rowValue (env : Env) (binary : Bool) (shared : List (Option Str)) : Option (Nat × Raw) → Option Val
  | none => none
  | some (x, v) => (rawValue env binary shared x v).join

/-- Number of the run of each row: it goes up by one whenever the type tag is not that of the row before (an empty row
has none).  `n` is the number of the row before and `prev` its tag. -/
def runNumbers {α : Type} (n : Nat) (prev : Option (Option Nat)) : List (Option (Nat × α)) → List Nat
  | [] => []
  | r :: rs =>
    let m := if prev = some (r.map (·.1)) then n else n + 1
    m :: runNumbers m (some (r.map (·.1))) rs

/-- Values of the rows of a column, each with the number of its run. -/
def numberedRows (env : Env) (binary : Bool) (shared : List (Option Str)) (rows : List (Option (Nat × Raw))) :
    List (Option (Nat × Val)) :=
  List.zipWith (fun n r => (rowValue env binary shared r).map (n, ·)) (runNumbers 0 none rows) rows

/-- All cells have valid payloads. -/
def ValidCells (env : Env) (binary : Bool) (shared : List (Option Str)) (cs : List Cell) : Prop :=
  ∀ c ∈ cs, (rawValue env binary shared c.xdt c.val).isSome

/-- An empty column. -/
def freshSeries (shared : List (Option Str)) (binary : Bool) (o : ConcatOpts) : Series :=
  { shared := shared, binary := binary, opts := o }

end Rxls
