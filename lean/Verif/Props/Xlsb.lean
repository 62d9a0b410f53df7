import Verif.Lemmas.Sheet
import Verif.Lemmas.Utf16

/-! # Properties C37 to C41: rows and cells of an XLSB sheet -/

namespace Rxls

/-! ## C37 -/

/-- Every stream of records is: something without row records, rows, and possibly an end of data. -/
theorem C37_every_stream (rs : List Record) : ∃ p : SheetParts, p.Ok ∧ p.records = rs := split_stream rs

/-- C37.  Without limits the reader delivers, for every row in order, the value of every cell record, with the
row records numbered from 0: all of them, or only those of rows with a value.  If a record is malformed, the first
such exception is raised. -/
theorem C37_rows_in_place (styles : List Bytes) (isNull : Str → Bool) (nulls : List Bytes) (keep : Bool)
    (p : SheetParts) (hp : p.Ok) :
    (iterXlsb styles isNull (fun _ => nulls) { keepEmpty := keep } p.records {}).map evCells =
      (sheetItems (xlsbCell styles isNull nulls []) p.rows).map (numbered keep) := by
  rw [iter_parts p hp (Or.inl rfl)]
  exact runRows_plain _ _ keep [] p.rows (-1) false 0 (by cases keep <;> rfl)

/-- C37.  A cell record yields its column, the tag for its content and cell format, and its content; it yields
nothing exactly when the content is null. -/
theorem C37_cell (styles : List Bytes) (isNull : Str → Bool) (nulls : List Bytes) (col : Nat) (style : Bytes)
    (flags : UInt8) (c : Content) (extra : Bytes) (id : Nat) (hcol : col < 2 ^ 32) (hst : style.length = 3)
    (hc : c.Fits) (hid : id ∈ c.ids) :
    xlsbCell styles isNull nulls [] ⟨id, cellPayload col style flags c extra⟩ =
      .ok (if c.dropped isNull nulls then none else some (col, c.tag (styles.contains style), c.raw)) := by
  obtain ⟨s0, s1, s2, rfl⟩ : ∃ a b d, style = [a, b, d] := by
    match style, hst with
    | [a, b, d], _ => exact ⟨a, b, d, rfl⟩
  have h1 : unpackI (pySlice (cellPayload col [s0, s1, s2] flags c extra) 0 4) = .ok col := by
    have : pySlice (cellPayload col [s0, s1, s2] flags c extra) 0 4 = le32 col := rfl
    rw [this]
    exact unpackI_le32 hcol
  have h2 : pySlice (cellPayload col [s0, s1, s2] flags c extra) 4 7 = [s0, s1, s2] := rfl
  unfold xlsbCell
  simp only [h1, h2, List.isEmpty_nil, Bool.not_true, Bool.false_and, Bool.false_eq_true, if_false]
  cases c with
  | rk w =>
    simp only [Content.ids, List.mem_singleton] at hid
    subst hid
    have : pySlice (cellPayload col [s0, s1, s2] flags (.rk w) extra) 8 12 = le32 w := rfl
    cases hsty : styles.contains [s0, s1, s2] <;>
      simp [this, Content.dropped, Content.tag, Content.raw, Content.bytes, REPR_TEMPORAL, TYPE_NUMERIC,
        REPR_RKNUMBER]
  | real w =>
    have : pySlice (cellPayload col [s0, s1, s2] flags (.real w) extra) 8 16 = le64 w := rfl
    simp only [Content.ids, List.mem_cons, List.not_mem_nil, or_false] at hid
    cases hsty : styles.contains [s0, s1, s2] <;> rcases hid with rfl | rfl <;>
      simp [this, Content.dropped, Content.tag, Content.raw, Content.bytes, REPR_TEMPORAL, TYPE_NUMERIC,
        REPR_PREPARED]
  | bool b =>
    have : pySlice (cellPayload col [s0, s1, s2] flags (.bool b) extra) 8 9 = [if b then 1 else 0] := rfl
    simp only [Content.ids, List.mem_cons, List.not_mem_nil, or_false] at hid
    rcases hid with rfl | rfl <;>
      simp [this, Content.dropped, Content.tag, Content.raw, Content.bytes, REPR_BOOLEAN, TYPE_NUMERIC]
  | shared i =>
    have : pySlice (cellPayload col [s0, s1, s2] flags (.shared i) extra) 8 12 = le32 i := rfl
    simp only [Content.ids, List.mem_singleton] at hid
    subst hid
    cases hn : nulls.contains (le32 i) <;>
      simp [this, hn, -List.contains_eq_mem, Content.dropped, Content.tag, Content.raw, Content.bytes, REPR_SHARED, TYPE_STRING]
  | text s =>
    have e1 : pySlice (cellPayload col [s0, s1, s2] flags (.text s) extra) 8 12 = le32 (utf16 s).length := rfl
    have e2 : pySlice (cellPayload col [s0, s1, s2] flags (.text s) extra) 12 ((utf16 s).length * 2 + 12) =
        utf16LE s := by
      have : cellPayload col [s0, s1, s2] flags (.text s) extra =
          (le32 col ++ ([s0, s1, s2] ++ (flags :: le32 (utf16 s).length))) ++ (utf16LE s ++ extra) := by
        simp [cellPayload, Content.bytes, wideString]
      rw [this, pySlice, List.take_append, List.drop_append, ← utf16LE_length]
      simp [le32]
    simp only [Content.ids, List.mem_cons, List.not_mem_nil, or_false] at hid
    cases hn : isNull s <;> rcases hid with rfl | rfl <;>
      simp [e1, unpackI_le32 hc.2, e2, decodeUtf16_utf16LE hc.1, hn, Content.dropped, Content.tag, Content.raw,
        REPR_PREPARED, TYPE_STRING]

/-- Two rows with an empty one between them. -/
def exSheet : SheetParts :=
  ⟨[⟨402, []⟩], [⟨[], [⟨2, cellPayload 1 [0, 0, 0] 0 (.rk 8) []⟩, ⟨6, cellPayload 3 [1, 0, 0] 0 (.text ['a']) []⟩]⟩,
    ⟨[], []⟩, ⟨[], [⟨4, cellPayload 0 [0, 0, 0] 0 (.bool true) []⟩]⟩], [⟨402, []⟩]⟩

example : (iterXlsb [] (fun _ => false) (fun _ => []) { keepEmpty := true } exSheet.records {}).map evCells =
      .ok [⟨0, 1, 0x21, .bytes [8, 0, 0, 0]⟩, ⟨0, 3, 0x18, .text ['a']⟩, ⟨2, 0, 0x22, .bytes [1]⟩] ∧
    (iterXlsb [] (fun _ => false) (fun _ => []) { keepEmpty := false } exSheet.records {}).map evCells =
      .ok [⟨0, 1, 0x21, .bytes [8, 0, 0, 0]⟩, ⟨0, 3, 0x18, .text ['a']⟩, ⟨1, 0, 0x22, .bytes [1]⟩] := by
  decide +kernel

/-- Finding: the row number stored in the row record is ignored, so rows that a sheet leaves out altogether are
not counted even if empty rows are to be kept: the two cells below are in rows 0 and 5. -/
theorem C37_row_number_ignored :
    (iterXlsb [] (fun _ => false) (fun _ => []) { keepEmpty := true }
      [⟨0, le32 0⟩, ⟨2, cellPayload 0 [0, 0, 0] 0 (.rk 8) []⟩, ⟨0, le32 5⟩, ⟨2, cellPayload 0 [0, 0, 0] 0 (.rk 8) []⟩]
      {}).map evCells =
    .ok [⟨0, 0, 0x21, .bytes [8, 0, 0, 0]⟩, ⟨1, 0, 0x21, .bytes [8, 0, 0, 0]⟩] := by
  decide +kernel

/-! ## C38 -/

/-- C38, exact behaviour when empty rows are counted: with `skip_rows = k` and `take_rows = t` (not both 0) the
cells of the `t + 1` rows from row `k` on are delivered, renumbered from 0. -/
theorem C38_window_exact (styles : List Bytes) (isNull : Str → Bool) (nulls : List Bytes) (k t : Nat)
    (hkt : 0 < t + k) (p : SheetParts) (hp : p.Ok) (ht : ∀ r ∈ p.tail, r.recId ≠ 0) (L : List (List Item))
    (hL : sheetItems (xlsbCell styles isNull nulls []) p.rows = .ok L) :
    ∃ evs, iterXlsb styles isNull (fun _ => nulls) { skipRows := k, takeRows := t } p.records {} = .ok evs ∧
      evCells evs = numbered true ((L.drop k).take (t + 1)) := by
  rw [iter_parts p hp (Or.inr ht)]
  obtain ⟨evs, h1, h2⟩ := runRows_window (xlsbCell styles isNull nulls []) (!p.tail.isEmpty) k t true []
    (Or.inr rfl) p.rows (-1) false 0 L rfl hL
  refine ⟨evs, h1, ?_⟩
  rw [h2, window_rows k t hkt]
  rfl

/-- C38, partial: empty rows are counted and `take_rows` reaches the end of the sheet.  Then exactly the rows from
`k` on are delivered.  Missing: `take_rows` absent, empty rows not counted; both fail, see below. -/
theorem C38_skip_rows_partial (styles : List Bytes) (isNull : Str → Bool) (nulls : List Bytes) (k t : Nat)
    (hkt : 0 < t + k) (p : SheetParts) (hp : p.Ok) (ht : ∀ r ∈ p.tail, r.recId ≠ 0) (L : List (List Item))
    (hL : sheetItems (xlsbCell styles isNull nulls []) p.rows = .ok L) (hlen : L.length ≤ k + t + 1) :
    ∃ evs, iterXlsb styles isNull (fun _ => nulls) { skipRows := k, takeRows := t } p.records {} = .ok evs ∧
      evCells evs = numbered true (L.drop k) := by
  obtain ⟨evs, h1, h2⟩ := C38_window_exact styles isNull nulls k t hkt p hp ht L hL
  refine ⟨evs, h1, ?_⟩
  rw [h2, List.take_of_length_le (by simp; omega)]

/-- Finding: with `skip_rows = k > 0` and no `take_rows` only row `k` is delivered (the limit `take_rows += skip_rows`
is no longer 0, which would mean "no limit"). -/
theorem C38_only_one_row (styles : List Bytes) (isNull : Str → Bool) (nulls : List Bytes) (k : Nat)
    (hk : 0 < k) (p : SheetParts) (hp : p.Ok) (ht : ∀ r ∈ p.tail, r.recId ≠ 0) (L : List (List Item))
    (hL : sheetItems (xlsbCell styles isNull nulls []) p.rows = .ok L) :
    ∃ evs, iterXlsb styles isNull (fun _ => nulls) { skipRows := k } p.records {} = .ok evs ∧
      evCells evs = numbered true ((L.drop k).take 1) :=
  C38_window_exact styles isNull nulls k 0 (by omega) p hp ht L hL

/-- Finding: with `skip_rows = k > 0` and empty rows not counted (the default of `read`) no cell of any sheet is
delivered: a skipped row looks empty, so the row number never reaches `k`. -/
theorem C38_default_delivers_nothing (styles : List Bytes) (isNull : Str → Bool) (nulls : List Bytes)
    (k t : Nat) (hk : 0 < k) (cols : List Int) (p : SheetParts) (hp : p.Ok) (ht : ∀ r ∈ p.tail, r.recId ≠ 0) :
    iterXlsb styles isNull (fun _ => nulls) ⟨k, t, false, cols⟩ p.records {} = .ok [] := by
  rw [iter_parts p hp (Or.inr ht)]
  exact runRows_stuck _ _ k t hk cols p.rows (-1) false rfl (by omega)

example : sheetItems (xlsbCell [] (fun _ => false) [] []) exSheet.rows =
      .ok [[(1, 0x21, .bytes [8, 0, 0, 0]), (3, 0x18, .text ['a'])], [], [(0, 0x22, .bytes [1])]] ∧
    (iterXlsb [] (fun _ => false) (fun _ => []) { skipRows := 2, takeRows := 5 } exSheet.records {}).map evCells =
      .ok [⟨0, 0, 0x22, .bytes [1]⟩] ∧
    (iterXlsb [] (fun _ => false) (fun _ => []) { skipRows := 1 } exSheet.records {}).map evCells = .ok [] ∧
    (iterXlsb [] (fun _ => false) (fun _ => []) { skipRows := 1, takeRows := 1 } exSheet.records {}).map evCells =
      .ok [⟨1, 0, 0x22, .bytes [1]⟩] := by
  decide +kernel

/-! ## C39 -/

/-- C39.  With `take_rows = t > 0` and nothing skipped the cells delivered are exactly those of rows `0..t` of the
unlimited iteration. -/
theorem C39_take_rows (styles : List Bytes) (isNull : Str → Bool) (nulls : List Bytes) (keep : Bool)
    (cols : List Int) (t : Nat) (ht : 0 < t) (p : SheetParts) (hp : p.Ok) (evs : List Ev)
    (h : iterXlsb styles isNull (fun _ => nulls) ⟨0, 0, keep, cols⟩ p.records {} = .ok evs) :
    ∃ evs', iterXlsb styles isNull (fun _ => nulls) ⟨0, t, keep, cols⟩ p.records {} = .ok evs' ∧
      evCells evs' = (evCells evs).filter fun c => decide (c.row ≤ t) := by
  rw [iter_parts p hp (Or.inl rfl)] at h
  rw [iter_parts p hp (Or.inl rfl)]
  have h0 := runRows_plain (xlsbCell styles isNull nulls cols) (!p.tail.isEmpty) keep cols p.rows (-1) false 0
    (by cases keep <;> rfl)
  rw [h] at h0
  cases hL : sheetItems (xlsbCell styles isNull nulls cols) p.rows with
  | error e => rw [hL] at h0; simp [Except.map] at h0
  | ok L =>
    rw [hL] at h0
    simp only [Except.map, Except.ok.injEq] at h0
    obtain ⟨evs', h1, h2⟩ := runRows_window (xlsbCell styles isNull nulls cols) (!p.tail.isEmpty) 0 t keep cols
      (Or.inl rfl) p.rows (-1) false 0 L (by cases keep <;> rfl) hL
    refine ⟨evs', h1, ?_⟩
    rw [h2, h0]
    have e : (fun c : Cell => ({ c with row := c.row - 0 } : Cell)) = id := by funext c; cases c; rfl
    rw [e, List.map_id]
    apply List.filter_congr
    intro c _
    simp [inWindow]
    omega

example : (iterXlsb [] (fun _ => false) (fun _ => []) ⟨0, 1, true, []⟩ exSheet.records {}).map evCells =
      .ok [⟨0, 1, 0x21, .bytes [8, 0, 0, 0]⟩, ⟨0, 3, 0x18, .text ['a']⟩] ∧
    (iterXlsb [] (fun _ => false) (fun _ => []) ⟨0, 1, false, []⟩ exSheet.records {}).map evCells =
      .ok [⟨0, 1, 0x21, .bytes [8, 0, 0, 0]⟩, ⟨0, 3, 0x18, .text ['a']⟩, ⟨1, 0, 0x22, .bytes [1]⟩] := by
  decide +kernel

/-! ## C40 -/

/-- C40.  With `skip_cols` the cells delivered are exactly those of the unrestricted iteration in other columns, with
the same row numbers, when empty rows are counted or no row becomes empty. -/
theorem C40_skip_cols (styles : List Bytes) (isNull : Str → Bool) (nulls : List Bytes) (keep : Bool)
    (cols : List Int) (p : SheetParts) (hp : p.Ok) (L : List (List Item))
    (hL : sheetItems (xlsbCell styles isNull nulls []) p.rows = .ok L)
    (hne : keep = true ∨ ∀ is ∈ L, is ≠ [] → ∃ i ∈ is, i.1 ∉ cols) :
    ∃ evs evs', iterXlsb styles isNull (fun _ => nulls) ⟨0, 0, keep, []⟩ p.records {} = .ok evs ∧
      iterXlsb styles isNull (fun _ => nulls) ⟨0, 0, keep, cols⟩ p.records {} = .ok evs' ∧
      evCells evs' = (evCells evs).filter fun c => !cols.contains c.col := by
  rw [iter_parts p hp (Or.inl rfl), iter_parts p hp (Or.inl rfl)]
  have h0 := runRows_plain (xlsbCell styles isNull nulls []) (!p.tail.isEmpty) keep [] p.rows (-1) false 0
    (by cases keep <;> rfl)
  have h1 := runRows_plain (xlsbCell styles isNull nulls cols) (!p.tail.isEmpty) keep cols p.rows (-1) false 0
    (by cases keep <;> rfl)
  rw [hL] at h0
  rw [sheetItems_skip cols _ _ hL] at h1
  cases hr0 : runRows (xlsbCell styles isNull nulls []) ⟨0, 0, keep, []⟩ (!p.tail.isEmpty) p.rows (-1) false with
  | error e => rw [hr0] at h0; simp [Except.map] at h0
  | ok evs =>
    cases hr1 : runRows (xlsbCell styles isNull nulls cols) ⟨0, 0, keep, cols⟩ (!p.tail.isEmpty) p.rows (-1) false with
    | error e => rw [hr1] at h1; simp [Except.map] at h1
    | ok evs' =>
      refine ⟨evs, evs', rfl, rfl, ?_⟩
      rw [hr0] at h0
      rw [hr1] at h1
      simp only [Except.map, Except.ok.injEq] at h0 h1
      rw [h0, h1]
      apply numberedFrom_filter keep (fun c => !cols.contains c)
      rcases hne with h | h
      · exact Or.inl h
      · refine Or.inr fun is hi hn => ?_
        obtain ⟨i, hm, hc⟩ := h is hi hn
        intro he
        have := List.filter_eq_nil_iff.1 he i hm
        simp [hc] at this

example : (iterXlsb [] (fun _ => false) (fun _ => []) ⟨0, 0, false, [1]⟩ exSheet.records {}).map evCells =
      .ok [⟨0, 3, 0x18, .text ['a']⟩, ⟨1, 0, 0x22, .bytes [1]⟩] ∧
    ∀ is ∈ [[(1, 0x21, Raw.bytes [8, 0, 0, 0]), (3, 0x18, .text ['a'])], [], [(0, 0x22, .bytes [1])]],
      is ≠ [] → ∃ i ∈ is, i.1 ∉ [1] := by
  decide +kernel

/-- The proviso is needed: if a row becomes empty, the rows after it move up. -/
theorem C40_rows_move_up :
    (iterXlsb [] (fun _ => false) (fun _ => []) ⟨0, 0, false, [1, 3]⟩ exSheet.records {}).map evCells =
      .ok [⟨0, 0, 0x22, .bytes [1]⟩] := by
  decide +kernel

/-! ## C41 -/

/-- C41.  Without limits there is one callback per row record, and one more at the end of the sheet data if there
is any row. -/
theorem C41_callbacks (styles : List Bytes) (isNull : Str → Bool) (nulls : List Bytes) (keep : Bool)
    (cols : List Int) (p : SheetParts) (hp : p.Ok) (evs : List Ev)
    (h : iterXlsb styles isNull (fun _ => nulls) ⟨0, 0, keep, cols⟩ p.records {} = .ok evs) :
    evCallbacks evs = p.rows.length + (if p.tail ≠ [] then 1 else 0) := by
  rw [iter_parts p hp (Or.inl rfl)] at h
  rw [runRows_callbacks _ _ keep cols p.rows (-1) false evs (by cases keep <;> decide) h]
  congr 1
  by_cases ht : p.tail = []
  · simp [ht]
  · have : p.rows ≠ [] := fun hr => ht (hp.rows hr)
    simp [ht, this]

/-- C41.  With limits and empty rows counted: one callback per row record from row `k` up to the last row of the
window, and one at the end of the sheet data if it is reached and row `k` exists. -/
theorem C41_callbacks_window (styles : List Bytes) (isNull : Str → Bool) (nulls : List Bytes) (k t : Nat)
    (hkt : 0 < t + k) (cols : List Int) (p : SheetParts) (hp : p.Ok) (ht : ∀ r ∈ p.tail, r.recId ≠ 0) (evs : List Ev)
    (h : iterXlsb styles isNull (fun _ => nulls) ⟨k, t, true, cols⟩ p.records {} = .ok evs) :
    evCallbacks evs = min (p.rows.length - k) (t + 1) +
      (if p.tail ≠ [] ∧ k < p.rows.length ∧ p.rows.length ≤ t + k + 1 then 1 else 0) := by
  rw [iter_parts p hp (Or.inr ht)] at h
  rw [runRows_callbacks_window _ _ k t cols p.rows (-1) false 0 evs rfl h]
  congr 1
  · have : ∀ (m n : Nat), ((List.range' n m).filter (inWindow k t)).length =
        min (n + m) (t + k + 1) - max n k := by
      intro m
      induction m with
      | zero => intro n; simp
      | succ m ih =>
        intro n
        rw [List.range'_succ, List.filter_cons]
        by_cases hw : inWindow k t n = true
        · rw [if_pos hw, List.length_cons, ih]
          simp [inWindow] at hw
          omega
        · rw [if_neg hw, ih]
          simp [inWindow] at hw
          omega
    rw [this]
    omega
  · by_cases htl : p.tail = []
    · simp [htl]
    · have hr : p.rows ≠ [] := fun hr => htl (hp.rows hr)
      have : ¬ (t + k = 0) := by omega
      simp only [htl, hr, this, false_or, Nat.zero_add, ne_eq, not_false_eq_true, true_and]
      have : (!p.tail.isEmpty) = true := by simp [htl]
      simp [this]

example : (iterXlsb [] (fun _ => false) (fun _ => []) {} exSheet.records {}).map evCallbacks = .ok 4 ∧
    (iterXlsb [] (fun _ => false) (fun _ => []) { takeRows := 1 } exSheet.records {}).map evCallbacks = .ok 2 ∧
    (iterXlsb [] (fun _ => false) (fun _ => []) { skipRows := 2, takeRows := 3 } exSheet.records {}).map evCallbacks =
      .ok 2 := by
  decide +kernel

end Rxls
