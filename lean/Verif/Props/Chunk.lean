import Verif.Lemmas.ConcatTop
import Verif.Spec.DemoEnv

/-! # Properties C25-C32: chunks and the materialisation of a column -/

namespace Rxls

/-- Chunks for the examples: numbers, strings, moments, references to shared strings. -/
def exNums (l : List Nat) : Chunk := ⟨.f8 (l.map fun n : Nat => .fin (n : ℚ)), 0x28, l.length, []⟩
def exStrs (l : List (Option Str)) : Chunk := ⟨.strs l, 0x18, l.length, []⟩
def exMs (l : List Int) : Chunk := ⟨.i8 l, 0x2C, l.length, []⟩
def exShared (l : List Nat) (t : List (Option Str)) : Chunk := ⟨.idx l, 0x11, l.length, t⟩

/-- Options for the examples. -/
def exOff : ConcatOpts := ⟨false, false, [], 7⟩
def exNum : ConcatOpts := ⟨false, true, [], 7⟩
def exDt : ConcatOpts := ⟨true, false, [], 7⟩

/-! ## C25 -/

/-- C25, restricted to slices with a positive step, `stop` absent or non-zero and not beyond the end,
and `start` absent or not before `-n`.  Missing: the other slices, where it is false (below). -/
theorem C25_null_slice_partial (n : Nat) (s : PySlice) (hk : ∀ k, s.step = some k → 0 < k)
    (hstop : ∀ i, s.stop = some i → i ≠ 0 ∧ i ≤ n) (hstart : ∀ i, s.start = some i → -(n : Int) ≤ i) :
    nullSlice n s = (pyIndices n s).length :=
  nullSlice_up n s hk hstop hstart

example : nullSlice 10 ⟨some (-7), some 9, some 4⟩ = 2 ∧ pyIndices 10 ⟨some (-7), some 9, some 4⟩ = [3, 7] := by
  decide +kernel

/-- Finding: `[0:0]` selects everything, `[0:10]` of 5 cells gives 10 cells, `[-10:]` of 5 cells gives 10
cells, and `[::-1]` gives none. -/
theorem C25_null_slice_wrong :
    (nullSlice 5 ⟨some 0, some 0, none⟩ = 5 ∧ pyIndices 5 ⟨some 0, some 0, none⟩ = []) ∧
    (nullSlice 5 ⟨some 0, some 10, none⟩ = 10 ∧ pyIndices 5 ⟨some 0, some 10, none⟩ = [0, 1, 2, 3, 4]) ∧
    (nullSlice 5 ⟨some (-10), none, none⟩ = 10 ∧ pyIndices 5 ⟨some (-10), none, none⟩ = [0, 1, 2, 3, 4]) ∧
    (nullSlice 5 ⟨none, none, some (-1)⟩ = 0 ∧ pyIndices 5 ⟨none, none, some (-1)⟩ = [4, 3, 2, 1, 0]) := by
  decide +kernel

/-- Finding, in general: a stop beyond the end lengthens a null chunk by any amount. -/
theorem C25_grows (n k : Nat) (hn : 0 < n) : nullSlice n ⟨none, some ((n + k : Nat) : Int), none⟩ = (n + k : Nat) := by
  have h1 : orInt (some ((n + k : Nat) : Int)) n = (n + k : Nat) := by
    rw [orInt_some, if_neg (by omega)]
  simp only [nullSlice, h1]
  have h2 : orInt none 0 = 0 := rfl
  have h3 : orInt none 1 = 1 := rfl
  simp only [h2, h3]
  rw [if_neg (by omega)]
  simp only [lt_irrefl, if_false]
  rw [if_neg (by omega : ¬ (((n + k : Nat) : Int) < 0))]
  simp only [show ¬ ((1 : Int) < 0) by omega, if_false]
  rw [if_neg (by omega)]
  simp

example : nullSlice 3 ⟨none, some ((3 + 4 : Nat) : Int), none⟩ = 7 := by decide +kernel

/-- C25, exactly when it holds, for slices without a step (the only ones the code makes): `lo` and `hi` are the bounds
counted from the front.  Either nothing is selected and the bounds say so, or the bounds lie inside the chunk. -/
theorem C25_exact (n : Nat) (hn : 0 < n) (s : PySlice) (hs : s.step = none) :
    let a := s.start.getD 0
    let b := s.stop.getD n
    let lo := if a < 0 then a + n else a
    let hi := if b < 0 then b + n else b
    nullSlice n s = (pyIndices n s).length ↔
      (b = 0 ∧ n ≤ lo) ∨ (b ≠ 0 ∧ (hi ≤ lo ∨ (0 ≤ lo ∧ hi ≤ n))) := by
  intro a b lo hi
  have hlen : (pyIndices n s).length =
      ((s.stop.map (clampUp n)).getD n) - ((s.start.map (clampUp n)).getD 0) := by
    rw [pyIndices, hs]
    simp
  have e1 : (s.start.map (clampUp n)).getD 0 = clampUp n a := by
    cases h : s.start <;> simp [a, h, clampUp]
  have e2 : (s.stop.map (clampUp n)).getD n = clampUp n b := by
    cases h : s.stop with
    | none => simp only [b, h, clampUp, Option.map_none, Option.getD_none]; split_ifs <;> omega
    | some i => simp [b, h]
  have e3 : orInt s.start 0 = a := by
    cases h : s.start with
    | none => simp [a, h, orInt]
    | some i => rw [orInt_some]; simp only [a, h, Option.getD_some]; split_ifs <;> omega
  have e4 : orInt s.stop n = if b = 0 then (n : Int) else b := by
    cases h : s.stop with
    | none => simp [b, h, orInt]
    | some i => rw [orInt_some]; simp only [b, h, Option.getD_some]
  rw [hlen, e1, e2, nullSlice, if_neg (by omega), hs, e3, e4]
  have e5 : orInt none 1 = 1 := rfl
  simp only [e5, show ¬ ((1 : Int) < 0) by omega, if_false, Int.ediv_one, Int.emod_one, ne_eq, not_true_eq_false,
    add_zero]
  simp only [clampUp, lo, hi]
  split_ifs <;> omega
example : nullSlice 10 ⟨some (-4), some 9, none⟩ = 3 ∧ nullSlice 10 ⟨some (-14), some 9, none⟩ = 13 ∧
    (pyIndices 10 ⟨some (-14), some 9, none⟩).length = 9 := by decide +kernel

/-! ## C26 -/

/-- C26.  A slice of a chunk holds exactly the cells Python's slice selects, with the same kind and
type flags and the right size.  For null chunks the slice has to be one C25 covers. -/
theorem C26_take_slice (c : Chunk) (k : Cls) (vs : List (Option Val)) (h : c.Holds k vs) (s : PySlice)
    (hs : ∀ i, s.step = some i → 0 < i)
    (hn : k = .null → (∀ i, s.stop = some i → i ≠ 0 ∧ i ≤ vs.length) ∧
      (∀ i, s.start = some i → -(vs.length : Int) ≤ i)) :
    ∃ c', c.take (.slice s) = .ok c' ∧ c'.Holds k (listSlice vs s) ∧ c'.typ = c.typ :=
  take_slice c k vs h s hs hn

/-- C26.  A mask of the length of the chunk selects exactly the cells where it is true. -/
theorem C26_take_mask (c : Chunk) (k : Cls) (vs : List (Option Val)) (h : c.Holds k vs) (m : List Bool)
    (hm : m.length = vs.length) :
    ∃ c', c.take (.mask m) = .ok c' ∧ c'.Holds k (selectRows vs m) ∧ c'.typ = c.typ :=
  take_mask c k vs h m hm

example : (exStrs [some ['a'], none, some ['b'], some ['c']]).take (.slice ⟨some 1, some (-1), none⟩) =
      .ok (exStrs [none, some ['b']]) ∧
    listSlice [some 'a', none, some 'b', some 'c'] ⟨some 1, some (-1), none⟩ = [none, some 'b'] ∧
    (exNums [4, 5, 6]).take (.mask [true, false, true]) = .ok (exNums [4, 6]) ∧
    selectRows [4, 5, 6] [true, false, true] = [4, 6] := by
  decide +kernel

/-- A mask of another length is rejected by every non-null chunk, never mis-aligned. -/
theorem C26_wrong_mask_rejected (c : Chunk) (k : Cls) (vs : List (Option Val)) (h : c.Holds k vs)
    (hk : k ≠ .null) (m : List Bool) (hm : m.length ≠ vs.length) :
    ∃ e, c.take (.mask m) = .error e := by
  refine ⟨_, take_bad c k vs h.1 hk (.mask m) ?_⟩
  intro α e l hl
  simp only [selectList]
  rw [if_neg (by omega)]

example : (exNums [4, 5, 6]).take (.mask [true, false]) = .error .indexError ∧
    (exStrs [some ['a']]).take (.mask [true, true]) = .error .arrowInvalid := by decide +kernel

/-- Finding: an index before the start gives one cell on a null chunk and none on any other; `-1`, the
last cell in Python, gives no cell of a number chunk. -/
theorem C26_negative_index :
    (Chunk.nulls 3).take (.at (-7)) = .ok (Chunk.nulls 1) ∧
    (exNums [4, 5, 6]).take (.at (-1)) = .ok (exNums []) ∧
    (exNums [4, 5, 6]).take (.at (-2)) = .ok (exNums [5]) := by
  decide +kernel

/-! ## C27 -/

/-- C27.  Rows `off … off+len-1` of the column, empty cells past its end, exactly `len` of them. -/
theorem C27_window (chunks : List Chunk) (col : List (Option Val)) (h : Column chunks col)
    (off len : Nat) (hl : 0 < len) :
    ∃ t, takeOver chunks off len none = .ok t ∧ Column (t.map (·.1)) (window col off len) ∧
      (window col off len).length = len := by
  obtain ⟨t, h1, h2⟩ := takeOver_window chunks col h off len hl
  exact ⟨t, h1, h2, window_length col off len⟩

example : takeOver [exNums [1, 2], exStrs [some ['a'], none, some ['b']], Chunk.nulls 1] 1 6 none =
    .ok [(exNums [2], none), (exStrs [some ['a'], none, some ['b']], some 1), (Chunk.nulls 1, some 2),
      (Chunk.nulls 1, none)] := by decide +kernel

/-- C27 with `length = 0`: only the rest of the chunk that contains row `off` is returned.  Missing: the
rows of the later chunks, which are dropped (below). -/
theorem C27_no_length_partial (pre : List Chunk) (c : Chunk) (post : List Chunk)
    (u v : List (Option Val)) (k : Cls) (hp : Column pre u) (hne : ∀ d ∈ pre, d.size ≠ 0)
    (hh : c.Holds k v) (off : Nat) (h1 : u.length ≤ off) (h2 : off < u.length + v.length) :
    ∃ t, takeOver (pre ++ c :: post) off 0 none = .ok t ∧
      Column (t.map (·.1)) (v.drop (off - u.length)) := by
  obtain ⟨t, cum, e, h3⟩ := takeLoop_zero pre c post u v k hp hne hh off h1 h2 0
  refine ⟨t, ?_, h3⟩
  simp [takeOver, e]

theorem Column.rows_length : ∀ {cs : List Chunk} {col : List (Option Val)}, Column cs col →
    col.length = (cs.map (·.size)).sum
  | _, _, .nil => rfl
  | _, _, .cons h1 h2 => by
    rw [List.length_append, List.map_cons, List.sum_cons, h1.2, Column.rows_length h2]

/-- C27 with `length = 0`, the exact condition: the rows from `off` on are returned exactly when the chunk that contains
row `off` is followed by no rows. -/
theorem C27_no_length_exact (pre : List Chunk) (c : Chunk) (post : List Chunk)
    (u v w : List (Option Val)) (k : Cls) (hp : Column pre u) (hne : ∀ d ∈ pre, d.size ≠ 0)
    (hh : c.Holds k v) (off : Nat) (h1 : u.length ≤ off) (h2 : off < u.length + v.length) :
    ∃ t, takeOver (pre ++ c :: post) off 0 none = .ok t ∧
      (Column (t.map (·.1)) ((u ++ v ++ w).drop off) ↔ w = []) := by
  obtain ⟨t, e, h3⟩ := C27_no_length_partial pre c post u v k hp hne hh off h1 h2
  refine ⟨t, e, fun h => ?_, fun h => ?_⟩
  · have e1 := h3.rows_length
    have e2 := h.rows_length
    rw [← e1] at e2
    simp only [List.length_drop, List.length_append] at e2
    exact List.length_eq_zero_iff.mp (by omega)
  · subst h
    rw [List.append_nil, List.drop_append, List.drop_of_length_le h1, List.nil_append]
    exact h3

example : takeOver [exNums [1, 2], exStrs [some ['a'], none], Chunk.nulls 0] 3 0 none = .ok [(exStrs [none], none)] ∧
    takeOver [exNums [1, 2], exStrs [some ['a'], none], Chunk.nulls 1] 3 0 none = .ok [(exStrs [none], none)] := by
  decide +kernel

/-- Finding: with an offset and no length, everything after the chunk that contains the offset is lost. -/
theorem C27_no_length_drops_rows :
    takeOver [exNums [1], exStrs [some ['a']], exNums [3]] 1 0 none = .ok [(exStrs [some ['a']], some 1)] := by
  decide +kernel

/-! ## C28 -/

/-- C28.  Exactly the cells at the rows where the mask is true, empty where the column has ended; as
many as the mask has true entries, so that columns filtered by one mask stay aligned. -/
theorem C28_mask (chunks : List Chunk) (col : List (Option Val)) (h : Column chunks col)
    (off : Nat) (length : Int) (m : List Bool) :
    ∃ t, takeOver chunks off length (some m) = .ok t ∧ Column (t.map (·.1)) (maskedRows col off m) ∧
      (maskedRows col off m).length = (m.filter id).length := by
  obtain ⟨t, h1, h2⟩ := takeOver_mask chunks col h off length m
  exact ⟨t, h1, h2, maskedRows_length col off m⟩

example : takeOver [exNums [1, 2], exStrs [some ['a'], none, some ['b']]] 1 0
      (some [true, false, true, true, false, true]) =
    .ok [(exNums [2], none), (exStrs [none, some ['b']], none), (Chunk.nulls 1, none)] := by decide +kernel

/-! ## C29 -/

/-- C29, length.  One element per cell: the whole column, `len` rows, or the selected rows. -/
theorem C29_length (env : Env) (o : ConcatOpts) (cs : List Chunk) (col : List (Option Val)) (h : Column cs col) :
    (∀ r, (concatenate env o cs 0 0 none).2 = .ok r → r.vals.length = col.length) ∧
    (∀ (off len : Nat) r, 0 < len → (concatenate env o cs off len none).2 = .ok r → r.vals.length = len) ∧
    (∀ (off : Nat) (len : Int) (m : List Bool) r, (concatenate env o cs off len (some m)).2 = .ok r →
      r.vals.length = (m.filter id).length) := by
  refine ⟨fun r hr => ?_, fun off len r hl hr => ?_, fun off len m r hr => ?_⟩
  · obtain ⟨rs, h1, h2⟩ := h.runs
    obtain ⟨as, _, h4, h5⟩ := concatenate_whole env o h1
    rw [h5] at hr
    rw [aConcat_length env o as r hr, ← runs_cells, h4, h2]
  · obtain ⟨t, ht, hc⟩ := takeOver_window cs col h off len hl
    obtain ⟨rs, h1, h2⟩ := hc.runs
    obtain ⟨as, _, h4, h5⟩ := concatenate_taken env o (.inr (.inl (by omega))) ht h1
    rw [h5] at hr
    rw [aConcat_length env o as r hr, ← runs_cells, h4, h2, window_length]
  · obtain ⟨t, ht, hc⟩ := takeOver_mask cs col h off len m
    obtain ⟨rs, h1, h2⟩ := hc.runs
    obtain ⟨as, _, h4, h5⟩ := concatenate_taken env o (.inr (.inr rfl)) ht h1
    rw [h5] at hr
    rw [aConcat_length env o as r hr, ← runs_cells, h4, h2, maskedRows_length]
    rfl

/-- C29, empty cells, when no string run contains a missing string, or no conversion is enabled:
element `i` is null exactly when cell `i` of the window is empty.  Missing: string runs with missing
strings under an enabled conversion (below). -/
theorem C29_nulls_partial (env : Env) (o : ConcatOpts) (cs : List Chunk) (col : List (Option Val))
    (h : Column cs col) (hg : (∀ c ∈ cs, c.NoGap) ∨ (o.confDt = false ∧ o.confNum = false)) :
    (∀ r, (concatenate env o cs 0 0 none).2 = .ok r → r.vals.map Option.isNone = col.map Option.isNone) ∧
    (∀ (off len : Nat) r, 0 < len → (concatenate env o cs off len none).2 = .ok r →
      r.vals.map Option.isNone = (window col off len).map Option.isNone) ∧
    (∀ (off : Nat) (len : Int) (m : List Bool) r, (concatenate env o cs off len (some m)).2 = .ok r →
      r.vals.map Option.isNone = (maskedRows col off m).map Option.isNone) := by
  have key : ∀ (ds : List Chunk) (as : List ACh) (r : Arr), List.Forall₂ Abs ds as →
      ((∀ c ∈ ds, c.NoGap) ∨ (o.confDt = false ∧ o.confNum = false)) → aConcat env o as = .ok r →
      r.vals.map Option.isNone = (Runs.cells (as.map ACh.run)).map Option.isNone := by
    intro ds as r h1 h2 h3
    have := aConcat_nulls env o as r h3 (h2.imp_left fun hg => forall2_left h1 hg fun a b => NoGap.full)
    rw [runs_cells]
    clear h3
    generalize as.flatMap ACh.cells = l at this
    generalize r.vals = l' at this
    induction this with
    | nil => rfl
    | cons hab _ ih => simp [hab, ih]
  refine ⟨fun r hr => ?_, fun off len r hl hr => ?_, fun off len m r hr => ?_⟩
  · obtain ⟨rs, h1, h2⟩ := h.runs
    obtain ⟨as, h3, h4, h5⟩ := concatenate_whole env o h1
    rw [h5] at hr
    rw [key cs as r h3 hg hr, h4, h2]
  · obtain ⟨t, ht, hc⟩ := takeOver_window cs col h off len hl
    obtain ⟨rs, h1, h2⟩ := hc.runs
    obtain ⟨as, h3, h4, h5⟩ := concatenate_taken env o (.inr (.inl (by omega))) ht h1
    rw [h5] at hr
    rw [key _ as r h3 (hg.imp_left fun hg => takeOver_pred noGap_pred hg ht) hr, h4, h2]
  · obtain ⟨t, ht, hc⟩ := takeOver_mask cs col h off len m
    obtain ⟨rs, h1, h2⟩ := hc.runs
    obtain ⟨as, h3, h4, h5⟩ := concatenate_taken env o (.inr (.inr rfl)) ht h1
    rw [h5] at hr
    rw [key _ as r h3 (hg.imp_left fun hg => takeOver_pred noGap_pred hg ht) hr, h4, h2]

example : (concatenate demoEnv exNum [exNums [1, 2], Chunk.nulls 1, exStrs [some ['7']]] 1 4 none).2 =
    .ok ⟨.i8, [some (.i8 2), none, some (.i8 7), none]⟩ := by decide +kernel

/-- Finding: a missing string becomes the number 0 when strings are converted to numbers. -/
theorem C29_null_becomes_zero :
    (concatenate demoEnv exNum [exNums [1], exStrs [none, some ['2']]] 0 0 none).2 =
      .ok ⟨.i8, [some (.i8 1), some (.i8 0), some (.i8 2)]⟩ := by
  decide +kernel

/-- Finding: the column has no result at all when the window selects nothing. -/
theorem C29_empty_mask_fails (env : Env) (o : ConcatOpts) (cs : List Chunk) (off len : Int) (m : List Bool)
    (hm : ∀ b ∈ m, b = false) : (concatenate env o cs off len (some m)).2 = .error .valueError := by
  have h0 : trueCount m = 0 := by
    simp only [trueCount, List.length_eq_zero_iff, List.filter_eq_nil_iff]
    intro b hb
    simp [hm b hb]
  have ht : takeOver cs off len (some m) = .ok [] := by simp [takeOver, h0]
  obtain ⟨as, h1, _, h3⟩ := concatenate_taken env o (.inr (.inr rfl)) ht (rs := []) .nil
  rw [h3]
  cases h1
  rfl

example : (concatenate demoEnv exOff [exNums [1, 2]] 0 0 (some [false, false])).2 = .error .valueError := by
  decide +kernel

/-! ## C30 -/

/-- C30.  The result exists and its type is the decided one, unless references to shared strings have
to become timestamps.  Missing: that case, where it is an exception (below). -/
theorem C30_type_partial (env : Env) (o : ConcatOpts) (cs : List Chunk) (rs : Runs) (h : HoldsRuns cs rs)
    (hne : cs ≠ []) (hraw : o.confDt = true → (∃ r ∈ rs, r.1 = .temp) → ∀ c ∈ cs, c.Resolved) :
    ∃ a, (concatenate env o cs 0 0 none).2 = .ok a ∧ a.dtype = decideType env o rs := by
  obtain ⟨as, h1, h2, h3⟩ := concatenate_whole env o h
  rw [h3, ← h2]
  refine aConcat_type env o as ?_ ?_
  · rintro rfl; cases h1; exact hne rfl
  · intro ht hd
    refine forall2_left h1 (hraw hd ?_) fun a b => Resolved.notRaw
    rw [List.any_eq_true] at ht
    obtain ⟨a, ha, hk⟩ := ht
    exact ⟨a.run, by rw [← h2]; exact List.mem_map_of_mem ha, by simpa [ACh.run] using hk⟩

/-- C30 for a window or a mask: `rs` are the runs of the selected rows. -/
theorem C30_type_window_partial (env : Env) (o : ConcatOpts) (cs : List Chunk) (off len : Int)
    (m : Option (List Bool)) (hw : off ≠ 0 ∨ len ≠ 0 ∨ m.isSome) (t : List Taken)
    (ht : takeOver cs off len m = .ok t) (hne : t ≠ []) (rs : Runs) (h : HoldsRuns (t.map (·.1)) rs)
    (hraw : o.confDt = true → (∃ r ∈ rs, r.1 = .temp) → ∀ c ∈ cs, c.Resolved) :
    ∃ a, (concatenate env o cs off len m).2 = .ok a ∧ a.dtype = decideType env o rs := by
  obtain ⟨as, h1, h2, h3⟩ := concatenate_taken env o hw ht h
  rw [h3, ← h2]
  refine aConcat_type env o as ?_ ?_
  · rintro rfl
    cases t with
    | nil => exact hne rfl
    | cons => cases h1
  · intro hT hd
    refine forall2_left h1 (takeOver_pred resolved_pred (hraw hd ?_) ht) fun a b => Resolved.notRaw
    rw [List.any_eq_true] at hT
    obtain ⟨a, ha, hk⟩ := hT
    exact ⟨a.run, by rw [← h2]; exact List.mem_map_of_mem ha, by simpa [ACh.run] using hk⟩

example :
    (concatenate demoEnv exDt [exNums [25570], exMs [5], exStrs [some ['D', '1']]] 0 0 none).2 =
      .ok ⟨.ts, [some (.ts 86400000), some (.ts 5), some (.ts 86400000)]⟩ ∧
    (concatenate demoEnv exOff [exNums [3], Chunk.nulls 1] 0 0 none).2 = .ok ⟨.i8, [some (.i8 3), none]⟩ ∧
    (concatenate demoEnv exOff [exNums [3], exStrs [some ['4']]] 0 0 none).2 =
      .ok ⟨.utf8, [some (.str ['3']), some (.str ['4'])]⟩ := by
  decide +kernel

/-- Finding: with datetime resolution on, a temporal column that also has shared strings (the ordinary
strings of a workbook) raises an exception nothing catches. -/
theorem C30_shared_strings_fail :
    (concatenate demoEnv exDt [exMs [5], exShared [0] [some ['D', '1']]] 0 0 none).2 =
      .error .arrowNotImplemented := by
  decide +kernel

/-! ## C31 -/

/-- C31.  Every cell keeps its text in each of these fall-backs: temporal cells mixed with others and
datetime resolution off; numbers mixed with strings, no temporal cells, and numeric resolution off or
the first string run not numeric.  Missing: the remaining fall-backs, where it is false (below). -/
theorem C31_text_partial (env : Env) (o : ConcatOpts) (cs : List Chunk) (rs : Runs) (h : HoldsRuns cs rs)
    (hmix : ((∃ r ∈ rs, r.1 = .temp) ∧ (∃ r ∈ rs, r.1 = .nums ∨ r.1 = .utf8) ∧ o.confDt = false) ∨
      ((∀ r ∈ rs, r.1 ≠ .temp) ∧ (∃ r ∈ rs, r.1 = .nums) ∧ (∃ r ∈ rs, r.1 = .utf8) ∧
        (o.confNum = false ∨ ∃ pre r post, rs = pre ++ r :: post ∧ (∀ q ∈ pre, q.1 ≠ .utf8) ∧ r.1 = .utf8 ∧
          numericTexts env r.2 = false))) :
    (concatenate env o cs 0 0 none).2 =
      .ok ⟨.utf8, rs.cells.map (Option.map fun v => .str (cellText env v))⟩ := by
  obtain ⟨as, h1, h2, h3⟩ := concatenate_whole env o h
  rw [h3, ← h2, runs_cells]
  have hany : ∀ k, (as.any fun a => a.cls == k) = true ↔ ∃ r ∈ rs, r.1 = k := by
    intro k
    rw [← h2]
    simp [ACh.run]
  have hne : as ≠ [] := by
    rintro rfl
    simp only [List.map_nil] at h2
    subst h2
    rcases hmix with ⟨⟨r, hr, _⟩, _⟩ | ⟨_, ⟨r, hr, _⟩, _⟩ <;> simp at hr
  refine aConcat_text env o as hne ?_
  unfold aConvert
  rcases hmix with ⟨hT, ⟨r, hr, hk⟩, hd⟩ | ⟨hT, hN, hS, hc⟩
  · simp only [(hany .temp).mpr hT, hd, if_true, Bool.false_eq_true, if_false]
    rcases hk with hk | hk
    · rw [(hany .nums).mpr ⟨r, hr, hk⟩]; rfl
    · rw [(hany .utf8).mpr ⟨r, hr, hk⟩, Bool.or_true]
  · have hT' : (as.any fun a => a.cls == .temp) = false := by
      rw [Bool.eq_false_iff]
      intro ht
      obtain ⟨r, hr, hk⟩ := (hany .temp).mp ht
      exact hT r hr hk
    simp only [hT', (hany .nums).mpr hN, (hany .utf8).mpr hS, Bool.false_eq_true, if_false, Bool.and_self, if_true]
    rcases hc with hc | ⟨pre, r, post, e, hp, hk, hn⟩
    · simp [hc]
    · have : aNumLoop env as = (as, true) := by
        rw [e, List.map_eq_append_iff] at h2
        obtain ⟨l1, l2, rfl, h4, h5⟩ := h2
        rw [List.map_eq_cons_iff] at h5
        obtain ⟨a, l3, rfl, h6, h7⟩ := h5
        refine aNumLoop_first env _ ⟨l1, a, l3, rfl, ?_, ?_, ?_⟩
        · intro b hb
          exact hp b.run (by rw [← h4]; exact List.mem_map_of_mem hb)
        · rw [← h6] at hk; exact hk
        · rw [← h6] at hn; exact hn
      rw [this]
      split <;> rfl

example : (concatenate demoEnv exNum [exNums [12], exStrs [some ['x'], none], exStrs [some ['0', '7']]] 0 0 none).2 =
    .ok ⟨.utf8, [some (.str ['1', '2']), some (.str ['x']), none, some (.str ['0', '7'])]⟩ := by decide +kernel

/-- Finding: a failure after some runs were converted leaves them converted: text `007` comes back as
`7`; the number 25570 comes back as the text of a moment. -/
theorem C31_text_lost :
    (concatenate demoEnv exNum [exNums [1], exStrs [some ['0', '0', '7']], exStrs [some ['x']]] 0 0 none).2 =
      .ok ⟨.utf8, [some (.str ['1']), some (.str ['7']), some (.str ['x'])]⟩ ∧
    (concatenate demoEnv exDt [exNums [25570], exMs [5], exStrs [some ['x']]] 0 0 none).2 =
      .ok ⟨.utf8, [some (.str "T86400000".toList), some (.str ['T', '5']), some (.str ['x'])]⟩ := by
  decide +kernel

/-! ## C32 -/

/-- C32.  Any history of calls that are windowed, or have both resolutions off, leaves the result of
every later call with datetime resolution off unchanged, although it may have prepared chunks in
place.  Missing: un-windowed calls with a resolution on and later calls with datetime resolution on,
where it is false (below). -/
theorem C32_pure_partial (env : Env) (cs : List Chunk) (col : List (Option Val)) (h : Column cs col)
    (hist : List Call)
    (hh : ∀ c ∈ hist, c.windowed ∨ (c.opts.confDt = false ∧ c.opts.confNum = false))
    (o : ConcatOpts) (ho : o.confDt = false) (off len : Int) (m : Option (List Bool)) :
    (concatenate env o (afterCalls env cs hist) off len m).2 = (concatenate env o cs off len m).2 := by
  have key : ∀ (hist : List Call) (ds : List Chunk), List.Forall₂ SameCells cs ds →
      (∀ c ∈ hist, c.windowed ∨ (c.opts.confDt = false ∧ c.opts.confNum = false)) →
      List.Forall₂ SameCells cs (afterCalls env ds hist) := by
    intro hist
    induction hist with
    | nil => exact fun ds hd _ => hd
    | cons c hist ih =>
      intro ds hd hh
      refine ih _ ?_ fun c hc => hh c (by simp [hc])
      have hs : Sound ds := forall2_left hd (P := fun _ => True) (fun _ _ => trivial)
        (fun a b _ ⟨k, vs, _, h2⟩ => ⟨k, vs, h2⟩)
      have hk : List.Forall₂ Chunk.Keeps ds (concatenate env c.opts ds c.offset c.length c.index).1 := by
        rcases hh c (by simp) with hw | ⟨h1, h2⟩
        · exact concatenate_keeps_window env c.opts ds hs c.offset c.length c.index hw
        · exact concatenate_keeps_flags env c.opts h1 h2 ds hs c.offset c.length c.index
      clear hs
      generalize (concatenate env c.opts ds c.offset c.length c.index).1 = es at hk
      clear ih hh h
      induction hd generalizing es with
      | nil => cases hk; exact .nil
      | @cons a b l l' hab _ ih =>
        cases hk with
        | cons hk1 hk2 =>
          refine .cons ?_ (ih _ hk2)
          obtain ⟨k, vs, h1, h2⟩ := hab
          exact ⟨k, vs, h1, hk1.same h2⟩
  have hself : List.Forall₂ SameCells cs cs := List.forall₂_same.mpr fun c hc => by
    obtain ⟨k, vs, hv⟩ := h.sound c hc
    exact ⟨k, vs, hv, hv⟩
  exact (concatenate_same env o ho (key hist cs hself hh) off len m).symm

example :
    afterCalls demoEnv [exShared [1, 0] [some ['a'], some ['b']], exNums [1]] [⟨exOff, 0, 0, none⟩] =
      [⟨.strs [some ['b'], some ['a']], 0x18, 2, [some ['a'], some ['b']]⟩, exNums [1]] ∧
    (concatenate demoEnv exOff [exShared [1, 0] [some ['a'], some ['b']], exNums [1]] 1 2 none).2 =
      .ok ⟨.utf8, [some (.str ['a']), some (.str ['1'])]⟩ := by
  decide +kernel

/-- Finding: an un-windowed call with numeric resolution replaces string runs by runs of recorded size
0, and the next windowed call loses their rows. -/
theorem C32_row_lost :
    (concatenate demoEnv exNum [exNums [1], exStrs [some ['7']], exStrs [some ['x']]] 0 3 none).2 =
      .ok ⟨.utf8, [some (.str ['1']), some (.str ['7']), some (.str ['x'])]⟩ ∧
    (concatenate demoEnv exNum (afterCalls demoEnv [exNums [1], exStrs [some ['7']], exStrs [some ['x']]]
        [⟨exNum, 0, 0, none⟩]) 0 3 none).2 =
      .ok ⟨.utf8, [some (.str ['1']), some (.str ['x']), none]⟩ := by
  decide +kernel

/-- Finding: whether a column with dates and shared strings can be read at all depends on whether it
was read before. -/
theorem C32_history_decides :
    (concatenate demoEnv exDt [exMs [5], exShared [0] [some ['D', '1']]] 0 2 none).2 = .error .arrowNotImplemented ∧
    (concatenate demoEnv exDt (afterCalls demoEnv [exMs [5], exShared [0] [some ['D', '1']]]
        [⟨exOff, 0, 2, none⟩]) 0 2 none).2 = .ok ⟨.ts, [some (.ts 5), some (.ts 86400000)]⟩ := by
  decide +kernel

end Rxls
