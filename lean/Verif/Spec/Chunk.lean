import Verif.Model.Chunk

/-!
# Reference semantics of chunks: the cells they stand for, and Python slicing
-/

namespace Rxls

/-- Row `start` or `stop` of a Python slice with positive step, clamped to `[0, n]`. -/
def clampUp (n : Nat) (i : Int) : Nat := (if i < 0 then max 0 (i + n) else min i n).toNat

/-- The same for a negative step, clamped to `[-1, n-1]`. -/
def clampDown (n : Nat) (i : Int) : Int := if i < 0 then max (-1) (i + n) else min i (n - 1)

/-- The indices a Python slice selects in a sequence of `n` elements: `start, start+step, …` before
`stop` (Python reference, `slice.indices`). -/
def pyIndices (n : Nat) (s : PySlice) : List Nat :=
  let step := s.step.getD 1
  if 0 < step then
    let lo := (s.start.map (clampUp n)).getD 0
    let hi := (s.stop.map (clampUp n)).getD n
    ((List.range (hi - lo)).filter (fun d => step.toNat ∣ d)).map (lo + ·)
  else
    let lo : Int := (s.start.map (clampDown n)).getD (n - 1)
    let hi : Int := (s.stop.map (clampDown n)).getD (-1)
    ((List.range (lo - hi).toNat).filter (fun d => (-step).toNat ∣ d)).map fun d => (lo - d).toNat

/-- `l[s]` on a Python list. -/
def listSlice {α : Type} (l : List α) (s : PySlice) : List α :=
  (pyIndices l.length s).filterMap (l[·]?)

/-- The elements at the positions where the mask is true. -/
def selectRows {α : Type} (l : List α) (m : List Bool) : List α :=
  ((List.range m.length).filter (fun i => m[i]? = some true)).filterMap (l[·]?)

/-- The kinds of chunk that exist, and the cells each stands for.

* a null chunk: empty cells;
* strings (0x18) and references to shared strings (0x11);
* numbers: float64 (0x28, 0x29 if they were RK numbers), RK numbers (0x21);
* temporal: serial numbers (0x24), RK serial numbers (0x25), milliseconds (0x2C, 0x2D). -/
inductive Denotes : Chunk → Cls → List (Option Val) → Prop where
  | null (n sz sr) : Denotes ⟨.nulls n, 0, sz, sr⟩ .null (List.replicate n none)
  | str (l sz sr) : Denotes ⟨.strs l, 0x18, sz, sr⟩ .utf8 (l.map (Option.map Val.str))
  | shared (l sz sr) (vs : List (Option Str)) (h : l.map (sr[·]?) = vs.map some) :
      Denotes ⟨.idx l, 0x11, sz, sr⟩ .utf8 (vs.map (Option.map Val.str))
  | num (l t sz sr) (h : t = 0x28 ∨ t = 0x29) :
      Denotes ⟨.f8 l, t, sz, sr⟩ .nums (l.map fun x => some (.f8 x))
  | rk (l sz sr) : Denotes ⟨.u32 l, 0x21, sz, sr⟩ .nums (l.map fun b => some (.f8 (rkToF8 b)))
  | serial (l sz sr) : Denotes ⟨.f8 l, 0x24, sz, sr⟩ .temp (l.map fun x => some (.ts (f8ToMsWin x)))
  | rkSerial (l sz sr) :
      Denotes ⟨.u32 l, 0x25, sz, sr⟩ .temp (l.map fun b => some (.ts (f8ToMsWin (rkToF8 b))))
  | ms (l t sz sr) (h : t = 0x2C ∨ t = 0x2D) :
      Denotes ⟨.i8 l, t, sz, sr⟩ .temp (l.map fun n => some (.ts n))

/-- A chunk with its cells, and `size` equal to their number. -/
def Chunk.Holds (c : Chunk) (k : Cls) (vs : List (Option Val)) : Prop :=
  Denotes c k vs ∧ c.size = vs.length

/-- A list of chunks stands for the cells `col` of a column. -/
inductive Column : List Chunk → List (Option Val) → Prop where
  | nil : Column [] []
  | cons {c cs k vs rest} : c.Holds k vs → Column cs rest → Column (c :: cs) (vs ++ rest)

/-- Cell of row `i` of a column; empty beyond its end. -/
def cellAt {α : Type} (col : List (Option α)) (i : Nat) : Option α := (col[i]?).join

/-- Rows `off .. off+len-1`. -/
def window {α : Type} (col : List (Option α)) (off len : Nat) : List (Option α) :=
  (List.range len).map fun i => cellAt col (off + i)

/-- The rows `off + i` with `m[i]` true. -/
def maskedRows {α : Type} (col : List (Option α)) (off : Nat) (m : List Bool) : List (Option α) :=
  ((List.range m.length).filter (fun i => m[i]? = some true)).map fun i => cellAt col (off + i)

end Rxls
