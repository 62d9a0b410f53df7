import Verif.Lemmas.Series
import Verif.Spec.DemoEnv

/-! # Properties C33-C36: building a column -/

namespace Rxls

/-- Cells for the examples: an RK number `4·n+2` (the integer `n < 64`) and a text. -/
def exRk (row n : Nat) : Cell := ⟨row, 0, 0x21, .bytes [UInt8.ofNat (4 * n + 2), 0, 0, 0]⟩
def exText (row : Nat) (s : Str) : Cell := ⟨row, 0, 0x18, .text s⟩
def exOpts : ConcatOpts := ⟨false, false, [], 6⟩

/-! ## C33 -/

/-- C33, structure.  After any sequence of `add`s that raises nothing, the chunks are, stretch by
stretch, the rows of the column: at every row the first cell that came for it before any cell further
down, empty otherwise, up to the last row; every non-empty stretch has one type and its payloads
unchanged.  Stretches are as long as can be (neighbours differ in type) and the last one is not empty. -/
theorem C33_structure (env : Env) (binary : Bool) (shared : List (Option Str)) (o : ConcatOpts) (cs : List Cell)
    (s s' : Series) (h1 : Series.addAll env cs (freshSeries shared binary o) = .ok s) (h2 : s.flush env = .ok s') :
    ∃ gs : List Stretch, List.Forall₂ (Stretch.Is env binary shared) gs s'.chunks ∧
      gs.flatMap Stretch.rows = rawColumn cs ∧ (gs.map Stretch.tag).IsChain (· ≠ ·) ∧
      (gs.map Stretch.tag).getLast? ≠ some none := by
  obtain ⟨i1, k1⟩ := addAll_inv cs (fresh_inv env shared binary o) h1
  rw [List.nil_append] at i1
  obtain ⟨h3, _⟩ := flush_inv i1 h2
  have hb : s.binary = binary := k1.binary
  have hs : s.shared = shared := k1.shared
  rw [hb, hs] at h3
  exact h3

/-- C33, values.  If every cell has a valid payload, nothing is raised and the chunks hold exactly the
values of the cells, each at its row, with empty cells in between. -/
theorem C33_values (env : Env) (binary : Bool) (shared : List (Option Str)) (o : ConcatOpts) (cs : List Cell)
    (hv : ValidCells env binary shared cs) :
    ∃ s s', Series.addAll env cs (freshSeries shared binary o) = .ok s ∧ s.flush env = .ok s' ∧
      Column s'.chunks ((rawColumn cs).map (rowValue env binary shared)) ∧
      (rawColumn cs).length = height cs := by
  obtain ⟨s, s', h1, h2, h3, _⟩ := built_column env binary shared o cs hv
  exact ⟨s, s', h1, h2, h3, by simp [rawColumn]⟩

/-- The height is the last row plus one. -/
theorem C33_height (cs : List Cell) (h : cs ≠ []) :
    (∃ c ∈ cs, c.row + 1 = height cs) ∧ ∀ c ∈ cs, c.row + 1 ≤ height cs := by
  constructor
  · have key : ∀ cs : List Cell, cs ≠ [] → ∃ c ∈ cs, c.row + 1 = height cs := by
      intro cs
      induction cs with
      | nil => intro h; exact absurd rfl h
      | cons c cs ih =>
        intro _
        have e : height (c :: cs) = max (c.row + 1) (height cs) := rfl
        by_cases hle : height cs ≤ c.row + 1
        · exact ⟨c, by simp, by rw [e, max_eq_left hle]⟩
        · have hne : cs ≠ [] := by rintro rfl; simp [height] at hle
          obtain ⟨d, hd, hr⟩ := ih hne
          exact ⟨d, by simp [hd], by rw [e, max_eq_right (by omega), hr]⟩
    exact key cs h
  · intro c hc
    by_contra hn
    have := find_ge cs c.row (by omega)
    rw [List.find?_eq_none] at this
    exact this c hc (by simp)

example : rawColumn [exRk 1 5, exText 1 ['x'], exRk 2 6, exText 4 ['y'], exRk 0 9] =
      [none, some (0x21, .bytes [22, 0, 0, 0]), some (0x21, .bytes [26, 0, 0, 0]), none, some (0x18, .text ['y'])] ∧
    ((Series.addAll demoEnv [exRk 1 5, exText 1 ['x'], exRk 2 6, exText 4 ['y'], exRk 0 9]
        (freshSeries [] true exOpts)).bind (Series.flush demoEnv)).toOption.map (·.chunks) =
      some [Chunk.nulls 1, ⟨.u32 [22#32, 26#32], 0x21, 2, []⟩, Chunk.nulls 1, ⟨.strs [some ['y']], 0x18, 1, []⟩] := by
  decide +kernel

/-- Finding: in an XLSX column one text that is no number turns the whole run of numbers, or of
moments, into strings. -/
theorem C33_xlsx_run_becomes_text (env : Env) (shared : List (Option Str)) (xdt : Nat) (ss : List Str)
    (hx : xdt = 0x20 ∨ xdt = 0x24) (h : ∃ s ∈ ss, env.pyFloat s = none) :
    makeChunk env false shared xdt (ss.map .text) = .ok ⟨.strs (ss.map some), 0x18, ss.length, []⟩ := by
  rcases hx with rfl | rfl <;>
    simp [makeChunk, hasBit, TYPE_STRING, Chunk.xlsxNumeric, fromiterF8_bad env ss h, Chunk.xlsxStrings,
      textArray_ok, REPR_PREPARED]

example : makeChunk demoEnv false [] 0x20 [.text ['1'], .text ['x'], .text ['3']] =
    .ok ⟨.strs [some ['1'], some ['x'], some ['3']], 0x18, 3, []⟩ := by decide +kernel

/-! ## C34 -/

/-- C34.  A cell at or above the last row leaves the column as it is. -/
theorem C34_readd_ignored (env : Env) (binary : Bool) (shared : List (Option Str)) (o : ConcatOpts)
    (cs : List Cell) (s : Series) (h : Series.addAll env cs (freshSeries shared binary o) = .ok s)
    (c : Cell) (hc : c.row < height cs) : s.add env c = .ok s := by
  obtain ⟨i1, _⟩ := addAll_inv cs (fresh_inv env shared binary o) h
  rw [List.nil_append] at i1
  have := i1.eRow
  unfold Series.add
  rw [if_pos (by omega)]

example : ((Series.addAll demoEnv [exRk 1 5, exRk 3 7, exText 2 ['x'], exRk 3 8]
      (freshSeries [] true exOpts)).bind (Series.flush demoEnv)).toOption.map (·.chunks) =
    some [Chunk.nulls 1, ⟨.u32 [22#32], 0x21, 1, []⟩, Chunk.nulls 1, ⟨.u32 [30#32], 0x21, 1, []⟩] := by decide +kernel

/-! ## C35 -/

/-- `len` of a column is the number of rows from its *first cell* to its last. -/
theorem C35_len_is_span (env : Env) (binary : Bool) (shared : List (Option Str)) (o : ConcatOpts)
    (c : Cell) (cs : List Cell) (s : Series)
    (h : Series.addAll env (c :: cs) (freshSeries shared binary o) = .ok s) :
    s.len = (height (c :: cs) : Int) - c.row := by
  obtain ⟨i1, _⟩ := addAll_inv (c :: cs) (fresh_inv env shared binary o) h
  rw [List.nil_append] at i1
  have h1 := i1.eRow
  have h2 : s.sRow = (c.row : Int) := i1.sRow
  unfold Series.len
  omega

/-- C35 when the first cell is in row 0.  Missing: columns that start further down, where `len` is too
small by the row of the first cell (`C35_len_is_span`, `C35_too_short`). -/
theorem C35_len_partial (env : Env) (binary : Bool) (shared : List (Option Str)) (o : ConcatOpts)
    (c : Cell) (cs : List Cell) (s : Series)
    (h : Series.addAll env (c :: cs) (freshSeries shared binary o) = .ok s) (h0 : c.row = 0) :
    s.len = height (c :: cs) := by
  rw [C35_len_is_span env binary shared o c cs s h, h0]
  simp

example : (Series.addAll demoEnv [exRk 0 5, exRk 6 5] (freshSeries [] true exOpts)).toOption.map (·.len) = some 7 := by
  decide +kernel

/-- Finding: a column whose only cell is in row 4 has length 1, although it spans five rows. -/
theorem C35_too_short :
    (Series.addAll demoEnv [exRk 4 5] (freshSeries [] true exOpts)).toOption.map (·.len) = some 1 ∧
    height [exRk 4 5] = 5 := by
  decide +kernel

/-! ## C36 -/

/-- C36.  Payloads of the right width come back as their own values, each once, in order. -/
theorem C36_own_value (w : Nat) (hw : 0 < w) (bs : List Bytes) (h : ∀ b ∈ bs, b.length = w) :
    dataToArray w (bs.map .bytes) = .ok (bs.map leNat) ∧ dataToArrow w (bs.map .bytes) = .ok (bs.map leNat) :=
  ⟨dataToArray_ok w hw bs h, dataToArrow_ok w bs h⟩

/-- C36.  A total that is no whole number of elements is rejected. -/
theorem C36_ragged_rejected (w : Nat) (bs : List Bytes) (h : (bs.map List.length).sum % w ≠ 0) :
    dataToArray w (bs.map .bytes) = .error .valueError := by
  unfold dataToArray
  rw [joinRaw_bytes]
  simp only [List.length_flatten, h, ne_eq, not_false_eq_true, if_true]

example : dataToArray 4 [.bytes [1, 0, 0, 0], .bytes [0, 1, 0, 0]] = .ok [1, 256] ∧
    dataToArray 4 [.bytes [1, 0, 0, 0], .bytes [7]] = .error .valueError := by decide +kernel

/-- Finding: payloads of the wrong width whose total happens to fit do bleed into each other: two
4-byte payloads make one double, in a chunk that claims two cells. -/
theorem C36_bleeds :
    makeChunk demoEnv true [] 0x28 [.bytes [0, 0, 0, 0], .bytes [0, 0, 240, 63]] =
      .ok ⟨.f8 [.fin 1], 0x28, 2, []⟩ := by
  decide +kernel

/-- Finding: a short shared-string index makes the code read past the end of its buffer. -/
theorem C36_short_index_undefined (env : Env) (shared : List (Option Str)) (b : Bytes) (h : b.length < 4) :
    makeChunk env true shared 0x11 [.bytes b] = .error .undefinedBehaviour := by
  have : dataToArrow 4 [.bytes b] = .error .undefinedBehaviour := by
    have hj : joinRaw [.bytes b] = .ok b := by simpa using joinRaw_bytes [b]
    unfold dataToArrow
    rw [hj]
    simp [h]
  simp [makeChunk, hasBit, TYPE_STRING, REPR_SHARED, Chunk.xlsbStrings, this]

example : makeChunk demoEnv true [] 0x11 [.bytes [1, 0]] = .error .undefinedBehaviour := by decide +kernel

end Rxls
