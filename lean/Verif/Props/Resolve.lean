import Verif.Lemmas.Resolve

/-! # Property C68: `conflict_resolve` in whole tables -/

namespace Rxls

/-- The number a value stands for, when numbers are wanted; the moment, when moments are and texts are dates; the
moment, when texts are serial numbers. -/
def Val.number? (env : Env) : Val → Option F64
  | .f8 x => some x
  | .str s => env.parseF8 s
  | _ => none
@[inherit_doc Val.number?] def Val.moment? (env : Env) (o : ConcatOpts) : Val → Option Int
  | .ts n => some n
  | .f8 x => some (f8ToMsWin x)
  | .str s => textMoment env o s
  | _ => none
@[inherit_doc Val.number?] def Val.serial? (env : Env) : Val → Option Int
  | .ts n => some n
  | .f8 x => some (f8ToMsWin x)
  | .str s => (env.parseF8 s).map f8ToMsWin
  | _ => none

/-- C68.  With `conflict_resolve="no"` there is no restriction on the columns, and no value changes. -/
theorem C68_off (env : Env) (o : ConcatOpts) (hd : o.confDt = false) (hn : o.confNum = false)
    (inline : Bool) (cells : List (Option Val)) :
    Resolvable env o inline cells ∧ fetched env o cells = materialise env o.prec cells := by
  refine ⟨Resolvable.off env hd hn inline cells, ?_⟩
  unfold fetched resolved
  rw [hd, hn]
  simp

/-- C68, partial: with numeric resolution, a column whose rows in the table have a number, no moment, and only texts
that read as numbers becomes a column of integers or floats, and every row has its number.  Missing: columns where only
some texts are numbers, which fail (below). -/
theorem C68_numeric_partial {A D : Type} (env : Env) (b : Bool) (shared : List (Option Str)) (o : ConcatOpts)
    (hn : o.confNum = true) (lib : Lib A D) (search : Str → Option (Str → Bool)) (reMatch : Str → Str → Py Bool)
    (args : ReadArgs D) (cells : List Cell) (hne : cells ≠ [])
    (hr : ∀ k, Resolvable env o (inlineColumn cells k) (colValues env b shared cells k)) (hv : PresentCells env b shared cells)
    (ha : 0 < args.lookupSize ∧ 0 ≤ args.header.height)
    (hdt : args.dtypes = .none) (hfl : args.filters = .none) (row : Nat)
    (hrow : lookupRow env o (colValues env b shared cells) (firstSeen cells) args.lookupSize.toNat search
      args.lookup = .ok (some row))
    (off len : Nat) (hoff : off = (args.header.height + row + args.skipAfter).toNat)
    (hlen : (len : Int) = maxSpan cells - (args.header.height + row + args.skipAfter)) (hpos : 0 < len) (t : Table A)
    (h : readCells env lib search reMatch args (freshSeries shared b o) cells = .ok t)
    (j : Nat) (k : Int) (hj : (columnsOf cells)[j]? = some k) (rows : List (Option Val))
    (hrows : rows = window (colValues env b shared cells k) off len)
    (hall : ∀ v, some v ∈ rows → (v.number? env).isSome) (hnum : ∃ x, some (.f8 x) ∈ rows) :
    ∃ arr, t.arrays[j]? = some (lib.ofFetched (.arr arr)) ∧ (arr.dtype = .i8 ∨ arr.dtype = .f8) ∧
      arr.vals = rows.map fun v => (v.bind (Val.number? env)).map fun x =>
        if arr.dtype = .i8 then .i8 x.toI64 else .f8 x := by
  have harr := readCells_arrays env b shared o lib search reMatch args cells hne hr hv ha hdt hfl row hrow
    (by omega) t h
  have e1 : (args.header.height + row + args.skipAfter).toNat = off := by omega
  have e2 : (maxSpan cells - row - args.header.height - args.skipAfter).toNat = len := by omega
  rw [e1, e2] at harr
  have hts : rows.any isTs = false := by
    rw [List.any_eq_false]
    intro v hv
    cases v with
    | none => simp [isTs]
    | some v =>
      have := hall v hv
      cases v <;> simp [isTs, Val.number?] at this ⊢
  have hnm : rows.any isNum = true := by
    obtain ⟨x, hx⟩ := hnum
    exact List.any_eq_true.mpr ⟨_, hx, rfl⟩
  have htx : numericTexts env rows = true := by
    rw [numericTexts, List.all_eq_true]
    intro v hv
    cases v with
    | none => rfl
    | some v =>
      have := hall v hv
      cases v <;> simp [Val.number?] at this ⊢
      exact this
  have hres : resolved env o rows = rows.map (Option.map (asNumber env)) := by
    unfold resolved
    rw [hts, hn, hnm, htx]
    rfl
  have hval : ∀ v, some v ∈ rows → ∃ x, v.number? env = some x ∧ asNumber env v = .f8 x := by
    intro v hv
    have := hall v hv
    cases v with
    | f8 x => exact ⟨x, rfl, rfl⟩
    | str s =>
      obtain ⟨x, hx⟩ := Option.isSome_iff_exists.1 this
      simp only [Val.number?] at hx
      exact ⟨x, hx, by simp [asNumber, hx]⟩
    | _ => simp [Val.number?] at this
  have hct : columnType o.prec (resolved env o rows) = .i8 ∨ columnType o.prec (resolved env o rows) = .f8 := by
    rw [hres]
    refine columnType_nums _ _ ?_ ?_
    · intro v hv
      obtain ⟨u, hu, e⟩ := List.mem_map.mp hv
      obtain ⟨u, rfl, rfl⟩ := Option.map_eq_some_iff.mp e
      obtain ⟨x, _, h2⟩ := hval u hu
      exact ⟨x, h2⟩
    · obtain ⟨x, hx⟩ := hnum
      exact List.any_eq_true.mpr ⟨_, List.mem_map_of_mem hx, rfl⟩
  refine ⟨fetched env o rows, ?_, hct, ?_⟩
  · rw [harr, List.getElem?_map, hj, hrows]; rfl
  · have hdt : (fetched env o rows).dtype = columnType o.prec (resolved env o rows) := rfl
    rw [hdt]
    unfold fetched materialise
    simp only
    conv_lhs => rw [hres]
    rw [List.map_map]
    apply List.map_congr_left
    intro v hv
    cases v with
    | none => rfl
    | some v =>
      obtain ⟨x, h1, h2⟩ := hval v hv
      simp only [Function.comp, Option.map_some, Option.bind_some, h1, h2]
      rw [← hres]
      rcases hct with hct | hct <;> rw [hct] <;> rfl

theorem moments_fetched (env : Env) (o : ConcatOpts) (hd : o.confDt = true) (rows : List (Option Val))
    (hts : ∃ n, some (.ts n) ∈ rows) (f : Val → Option Int)
    (hval : ∀ v, some v ∈ rows → ∃ x, f v = some x ∧ asMoment env o rows v = .ts x) :
    fetched env o rows = ⟨.ts, rows.map fun v => (v.bind f).map .ts⟩ := by
  have htm : rows.any isTs = true := by
    obtain ⟨x, hx⟩ := hts
    exact List.any_eq_true.mpr ⟨_, hx, rfl⟩
  have hres : resolved env o rows = rows.map (Option.map (asMoment env o rows)) := by
    unfold resolved
    rw [htm, hd]
    rfl
  have hct : columnType o.prec (resolved env o rows) = .ts := by
    rw [hres]
    refine columnType_moments _ _ ?_ ?_
    · intro v hv
      obtain ⟨u, hu, e⟩ := List.mem_map.mp hv
      obtain ⟨u, rfl, rfl⟩ := Option.map_eq_some_iff.mp e
      obtain ⟨x, _, h2⟩ := hval u hu
      exact ⟨x, h2⟩
    · obtain ⟨x, hx⟩ := hts
      exact List.any_eq_true.mpr ⟨_, List.mem_map_of_mem hx, rfl⟩
  unfold fetched materialise
  rw [hct, hres, List.map_map]
  congr 1
  apply List.map_congr_left
  intro v hv
  cases v with
  | none => rfl
  | some v =>
    obtain ⟨x, h1, h2⟩ := hval v hv
    simp only [Function.comp, Option.map_some, Option.bind_some, h1, h2]
    rfl

/-- C68, partial: with temporal resolution, a column whose rows in the table have a moment and otherwise only moments,
numbers and texts that are dates in one of the formats becomes a column of moments: every number is the moment it is
the serial number of, every text the moment it is the date of.  Missing: columns with moments and shared strings, which
fail (below). -/
theorem C68_temporal_partial {A D : Type} (env : Env) (b : Bool) (shared : List (Option Str)) (o : ConcatOpts)
    (hn : o.confDt = true) (lib : Lib A D) (search : Str → Option (Str → Bool)) (reMatch : Str → Str → Py Bool)
    (args : ReadArgs D) (cells : List Cell) (hne : cells ≠ [])
    (hr : ∀ k, Resolvable env o (inlineColumn cells k) (colValues env b shared cells k))
    (hv : PresentCells env b shared cells)
    (ha : 0 < args.lookupSize ∧ 0 ≤ args.header.height)
    (hdt : args.dtypes = .none) (hfl : args.filters = .none) (row : Nat)
    (hrow : lookupRow env o (colValues env b shared cells) (firstSeen cells) args.lookupSize.toNat search
      args.lookup = .ok (some row))
    (off len : Nat) (hoff : off = (args.header.height + row + args.skipAfter).toNat)
    (hlen : (len : Int) = maxSpan cells - (args.header.height + row + args.skipAfter)) (hpos : 0 < len) (t : Table A)
    (h : readCells env lib search reMatch args (freshSeries shared b o) cells = .ok t)
    (j : Nat) (k : Int) (hj : (columnsOf cells)[j]? = some k) (rows : List (Option Val))
    (hrows : rows = window (colValues env b shared cells k) off len)
    (hall : ∀ v, some v ∈ rows → (v.moment? env o).isSome) (hts : ∃ n, some (.ts n) ∈ rows) :
    t.arrays[j]? = some (lib.ofFetched (.arr ⟨.ts, rows.map fun v => (v.bind (Val.moment? env o)).map .ts⟩)) := by
  have harr := readCells_arrays env b shared o lib search reMatch args cells hne hr hv ha hdt hfl row hrow
    (by omega) t h
  have e1 : (args.header.height + row + args.skipAfter).toNat = off := by omega
  have e2 : (maxSpan cells - row - args.header.height - args.skipAfter).toNat = len := by omega
  rw [e1, e2] at harr
  have hM : momentTexts env o rows = true := momentTexts_mem.mpr fun s hs => hall _ hs
  rw [harr, List.getElem?_map, hj, ← moments_fetched env o hn rows hts (Val.moment? env o) ?_, hrows]
  · rfl
  · intro v hv
    have := hall v hv
    cases v with
    | f8 x => exact ⟨_, rfl, rfl⟩
    | ts n => exact ⟨n, rfl, rfl⟩
    | str s =>
      obtain ⟨x, hx⟩ := Option.isSome_iff_exists.mp this
      refine ⟨x, hx, ?_⟩
      rw [Val.moment?] at hx
      simp [asMoment, hM, hx]
    | i8 n => simp [Val.moment?] at this

/-- C68, partial: with both resolutions, a column with a moment whose texts are no dates but numbers (in XLSX: the
numbers of cells with the General format) becomes a column of moments: every text is the moment it is the serial number
of.  Missing: as above. -/
theorem C68_serial_partial {A D : Type} (env : Env) (b : Bool) (shared : List (Option Str)) (o : ConcatOpts)
    (hn : o.confDt = true) (hc : o.confNum = true) (lib : Lib A D) (search : Str → Option (Str → Bool))
    (reMatch : Str → Str → Py Bool)
    (args : ReadArgs D) (cells : List Cell) (hne : cells ≠ [])
    (hr : ∀ k, Resolvable env o (inlineColumn cells k) (colValues env b shared cells k))
    (hv : PresentCells env b shared cells)
    (ha : 0 < args.lookupSize ∧ 0 ≤ args.header.height)
    (hdt : args.dtypes = .none) (hfl : args.filters = .none) (row : Nat)
    (hrow : lookupRow env o (colValues env b shared cells) (firstSeen cells) args.lookupSize.toNat search
      args.lookup = .ok (some row))
    (off len : Nat) (hoff : off = (args.header.height + row + args.skipAfter).toNat)
    (hlen : (len : Int) = maxSpan cells - (args.header.height + row + args.skipAfter)) (hpos : 0 < len) (t : Table A)
    (h : readCells env lib search reMatch args (freshSeries shared b o) cells = .ok t)
    (j : Nat) (k : Int) (hj : (columnsOf cells)[j]? = some k) (rows : List (Option Val))
    (hrows : rows = window (colValues env b shared cells k) off len)
    (hall : ∀ v, some v ∈ rows → (v.serial? env).isSome) (hno : ∀ s, some (.str s) ∈ rows → textMoment env o s = none)
    (hts : ∃ n, some (.ts n) ∈ rows) :
    t.arrays[j]? = some (lib.ofFetched (.arr ⟨.ts, rows.map fun v => (v.bind (Val.serial? env)).map .ts⟩)) := by
  have harr := readCells_arrays env b shared o lib search reMatch args cells hne hr hv ha hdt hfl row hrow
    (by omega) t h
  have e1 : (args.header.height + row + args.skipAfter).toNat = off := by omega
  have e2 : (maxSpan cells - row - args.header.height - args.skipAfter).toNat = len := by omega
  rw [e1, e2] at harr
  have hN : numericTexts env rows = true := numericTexts_mem.mpr fun s hs => by
    simpa [Val.serial?] using hall _ hs
  rw [harr, List.getElem?_map, hj, ← moments_fetched env o hn rows hts (Val.serial? env) ?_, hrows]
  · rfl
  · intro v hv
    have := hall v hv
    cases v with
    | f8 x => exact ⟨_, rfl, rfl⟩
    | ts n => exact ⟨n, rfl, rfl⟩
    | str s =>
      have hM : momentTexts env o rows = false := by
        rw [Bool.eq_false_iff]
        intro h0
        have := momentTexts_mem.mp h0 s hv
        rw [hno s hv] at this
        simp at this
      simp only [Val.serial?, Option.isSome_map] at this
      obtain ⟨x, hx⟩ := Option.isSome_iff_exists.mp this
      exact ⟨f8ToMsWin x, by simp [Val.serial?, hx], by simp [asMoment, hM, hc, hN, hx]⟩
    | i8 n => simp [Val.serial?] at this

/-- A cell with a shared string, and one with a whole number shown as a date. -/
def sh (row : Nat) (col : Int) (n : Nat) : Cell := ⟨row, col, 0x11, .bytes [UInt8.ofNat n, 0, 0, 0]⟩
def dt (row : Nat) (col : Int) (n : Nat) : Cell := ⟨row, col, 0x25, .bytes (le32 (4 * n + 2))⟩

/-- The default call with a resolution. -/
def exReadR (confDt confNum : Bool) (shared : List (Option Str)) (cells : List Cell) : Py (List Fetched) :=
  (readCells demoEnv exLib (fun _ => none) (fun _ _ => .ok false) {}
    (freshSeries shared true ⟨confDt, confNum, [], 6⟩) cells).map (·.arrays)

/-- A number and a numeric text; a date and a number. -/
example : exReadR false false [some ['0', '0', '7']] [nm 0 0 5, sh 1 0 0, dt 0 1 25570, nm 1 1 3] =
      .ok [.arr ⟨.utf8, [some (.str ['5']), some (.str ['0', '0', '7'])]⟩,
        .arr ⟨.utf8, [some (.str ['T', '8', '6', '4', '0', '0', '0', '0', '0']), some (.str ['3'])]⟩] ∧
    exReadR true true [some ['0', '0', '7']] [nm 0 0 5, sh 1 0 0, dt 0 1 25570, nm 1 1 3] =
      .ok [.arr ⟨.i8, [some (.i8 5), some (.i8 7)]⟩, .arr ⟨.ts, [some (.ts 86400000), some (.ts (-2208816000000))]⟩] := by
  decide +kernel

/-- Inline texts beside a date: a date; a number; and one that is neither, with which the column stays a text column, but
the number beside it has become a date. -/
theorem C68_number_changed :
    exReadR true true [] [dt 0 0 25570, tx 1 0 ['D', '1']] =
      .ok [.arr ⟨.ts, [some (.ts 86400000), some (.ts 86400000)]⟩] ∧
    exReadR true true [] [dt 0 0 25570, tx 1 0 ['7']] =
      .ok [.arr ⟨.ts, [some (.ts 86400000), some (.ts (-2208470400000))]⟩] ∧
    exReadR true true [] [dt 0 0 25570, ⟨1, 0, 0x21, .bytes (le32 (4 * 25571 + 2))⟩, tx 2 0 ['x']] =
      .ok [.arr ⟨.utf8, [some (.str ['T', '8', '6', '4', '0', '0', '0', '0', '0']),
        some (.str ['T', '1', '7', '2', '8', '0', '0', '0', '0', '0']), some (.str ['x'])]⟩] := by
  decide +kernel

/-- Finding, C68 fails: with temporal resolution one ordinary (shared) text in a column with a date makes the whole read
raise `ArrowNotImplementedError`, although the text is a date; without resolution the sheet is read. -/
theorem C68_date_and_text_raises :
    exReadR true false [some ['D', '1']] [nm 0 0 5, dt 0 1 25570, sh 1 1 0] = .error .arrowNotImplemented ∧
    exReadR true true [some ['D', '1']] [nm 0 0 5, dt 0 1 25570, sh 1 1 0] = .error .arrowNotImplemented ∧
    exReadR false false [some ['D', '1']] [nm 0 0 5, dt 0 1 25570, sh 1 1 0] =
      .ok [.arr ⟨.i8, [some (.i8 5), none]⟩,
        .arr ⟨.utf8, [some (.str ['T', '8', '6', '4', '0', '0', '0', '0', '0']), some (.str ['D', '1'])]⟩] := by
  decide +kernel

/-- Finding, C68 fails: with numeric resolution a text is changed although the column stays a text column.  `007` comes
back as `7` because another text of the column, in a later run, is no number; in one run with that text it is kept. -/
theorem C68_text_changed :
    exReadR false true [some ['0', '0', '7'], some ['x']] [nm 0 0 5, sh 1 0 0, nm 2 0 3, sh 3 0 1] =
      .ok [.arr ⟨.utf8, [some (.str ['5']), some (.str ['7']), some (.str ['3']), some (.str ['x'])]⟩] ∧
    exReadR false true [some ['0', '0', '7'], some ['x']] [nm 0 0 5, sh 1 0 0, sh 2 0 1, nm 3 0 3] =
      .ok [.arr ⟨.utf8, [some (.str ['5']), some (.str ['0', '0', '7']), some (.str ['x']), some (.str ['3'])]⟩] := by
  decide +kernel

end Rxls
