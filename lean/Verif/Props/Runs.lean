import Verif.Props.SharedDates
import Verif.Spec.Values

/-! # Property C68: conflict resolution run by run, for all columns -/

namespace Rxls

/-- C68.  The exact result of conflict resolution, for every setting.  If no column has both moments and shared strings
(or temporal resolution is off), `read` is the table of the columns resolved run by run, with every header, lookup,
filter and type; nothing is asked of the texts. -/
theorem C68_exact {A D : Type} (env : Env) (b : Bool) (shared : List (Option Str)) (o : ConcatOpts)
    (lib : Lib A D) (search : Str → Option (Str → Bool)) (reMatch : Str → Str → Py Bool) (args : ReadArgs D)
    (cells : List Cell) (hne : cells ≠ [])
    (hr : ∀ k, Datable o (inlineColumn cells k) (colValues env b shared cells k))
    (hv : PresentCells env b shared cells) (ha : args.Sensible)
    (hlen : ∀ row : Nat, lookupRowV env (runsView env o b shared cells) (firstSeen cells)
      args.lookupSize.toNat search args.lookup = .ok (some row) →
      0 < maxSpan cells - row - args.header.height - args.skipAfter) :
    readCells env lib search reMatch args (freshSeries shared b o) cells =
      sheetTableV env lib search reMatch args (runsView env o b shared cells) (firstSeen cells) (columnsOf cells)
        (maxSpan cells) :=
  readCells_runs env b shared o lib search reMatch args cells hne hr hv ha.lookup ha.header hlen

/-- C68.  With the default call: the rows of each column, with the numbers of their runs, resolved. -/
theorem C68_exact_default {A D : Type} (env : Env) (b : Bool) (shared : List (Option Str)) (o : ConcatOpts)
    (lib : Lib A D) (hlib : lib.Lawful) (search : Str → Option (Str → Bool)) (reMatch : Str → Str → Py Bool)
    (cells : List Cell) (hne : cells ≠ [])
    (hr : ∀ k, Datable o (inlineColumn cells k) (colValues env b shared cells k))
    (hv : PresentCells env b shared cells) :
    readCells env lib search reMatch {} (freshSeries shared b o) cells =
      .ok ⟨(List.range (columnsOf cells).length).map fun i => "Unnamed. ".toList ++ pyStr i,
        (columnsOf cells).map fun k => lib.ofFetched (.arr (fetchedRuns env o
          (window (numberedRows env b shared (rawColumn (colCells cells k))) 0 (maxSpan cells).toNat)))⟩ := by
  have hpos : 0 < maxSpan cells := by
    obtain ⟨c, cs, rfl⟩ := List.exists_cons_of_ne_nil hne
    have hk : c.col ∈ columnsOf (c :: cs) := by
      rw [columnsOf, List.mem_insertionSort, List.mem_dedup]; simp
    have h1 := spanOf_pos hk
    have h2 := (foldr_max_spec (spanOf (c :: cs)) (columnsOf (c :: cs))).1 _ hk
    unfold maxSpan
    omega
  rw [C68_exact env b shared o lib search reMatch {} cells hne hr hv ⟨show (0 : Int) < 30 by decide, le_refl (0 : Int)⟩ (by
    intro row h
    injection h with h
    injection h with h
    subst h
    simpa [HeaderArg.height] using hpos)]
  have hl : ∀ rows : List (Option (Nat × Val)), (fetchedRuns env o rows).vals.length = rows.length := by
    intro rows
    have := congrArg List.length (fetchedRuns_isSome env o rows)
    simpa using this
  unfold sheetTableV
  simp only [lookupRowV, namesForV, if_true, filterKeys, HeaderArg.height, maskForV, List.isEmpty_nil, Nat.cast_zero,
    add_zero, sub_zero, Int.toNat_zero, tableOfV, applyDtypes]
  rw [makeTable_ok (n := (maxSpan cells).toNat)]
  · rfl
  · simp
  · intro a ha
    obtain ⟨k, _, rfl⟩ := List.mem_map.mp ha
    rw [hlib.of, Fetched.rows, runsView, hl, pickRows_length]

/-- A row of a column read with numeric resolution only. -/
theorem resolvedRuns_numeric (env : Env) (o : ConcatOpts) (hn : o.confNum = true)
    (rows : List (Option (Nat × Val))) (hts : (plainCells rows).any isTs = false)
    (hnum : (plainCells rows).any isNum = true) :
    resolvedRuns env o rows =
      rows.map (Option.map fun r => if numericTexts env (cellsUpTo rows r.1) then asNumber env r.2 else r.2) := by
  unfold resolvedRuns
  rw [hts, hn, hnum]
  rfl

/-- C68.  Numeric resolution, in a column with a number and without a moment: the result is a column of numbers if and
only if every text reads as a number.  Otherwise it is a column of texts, where the texts of the runs above the first
run with a text that is no number are rewritten as numbers, and all others are unchanged. -/
theorem C68_numeric_exact (env : Env) (o : ConcatOpts) (hn : o.confNum = true) (rows : List (Option (Nat × Val)))
    (hts : ∀ n, some (.ts n) ∉ plainCells rows) (hi : ∀ n, some (.i8 n) ∉ plainCells rows)
    (hnum : ∃ x, some (.f8 x) ∈ plainCells rows) :
    ((fetchedRuns env o rows).dtype = .i8 ∨ (fetchedRuns env o rows).dtype = .f8 ↔
      ∀ s, some (.str s) ∈ plainCells rows → (env.parseF8 s).isSome = true) ∧
    ((∃ s, some (.str s) ∈ plainCells rows ∧ env.parseF8 s = none) →
      fetchedRuns env o rows = ⟨.utf8, rows.map (Option.map fun r => .str (match r.2 with
        | .str s => if numericTexts env (cellsUpTo rows r.1)
            then cellText env (.f8 ((env.parseF8 s).getD (.fin 0))) else s
        | v => cellText env v))⟩) := by
  classical
  have h1 : (plainCells rows).any isTs = false := by
    rw [List.any_eq_false]
    intro v hv
    cases v with
    | none => simp [isTs]
    | some v => cases v <;> simp [isTs]; exact absurd hv (hts _)
  have h2 : (plainCells rows).any isNum = true := by
    obtain ⟨x, hx⟩ := hnum
    exact List.any_eq_true.mpr ⟨_, hx, rfl⟩
  have hres := resolvedRuns_numeric env o hn rows h1 h2
  have hup : ∀ j v, some v ∈ cellsUpTo rows j → some v ∈ plainCells rows := by
    intro j v hv
    unfold cellsUpTo at hv
    obtain ⟨i, hi⟩ := mem_plain hv
    exact plain_mem (List.mem_filter.mp hi).1
  obtain ⟨x, hx⟩ := hnum
  obtain ⟨jx, hjx⟩ := mem_plain hx
  have hnumR : some (.f8 x) ∈ resolvedRuns env o rows := by
    rw [hres]
    refine List.mem_map.mpr ⟨_, hjx, ?_⟩
    simp [asNumber]
  have hno : ∀ n, some (.ts n) ∉ resolvedRuns env o rows := by
    intro n hm
    rw [hres] at hm
    obtain ⟨r, hr, e⟩ := List.mem_map.mp hm
    cases r with
    | none => simp at e
    | some r =>
      obtain ⟨j, v⟩ := r
      have hv := plain_mem hr
      simp only [Option.map_some, Option.some.injEq] at e
      split at e
      · cases v with
        | ts m => exact hts m hv
        | str s => simp [asNumber] at e
        | f8 x => simp [asNumber] at e
        | i8 x => simp [asNumber] at e
      · subst e; exact hts n hv
  have hanyTs : (resolvedRuns env o rows).any isTs = false := by
    rw [List.any_eq_false]
    intro v hv
    cases v with
    | none => simp [isTs]
    | some v => cases v <;> simp [isTs]; exact absurd hv (hno _)
  have hanyNum : (resolvedRuns env o rows).any isNum = true := List.any_eq_true.mpr ⟨_, hnumR, rfl⟩
  have hbad : ∀ s, some (.str s) ∈ plainCells rows → env.parseF8 s = none →
      (resolvedRuns env o rows).any isText = true := by
    intro s hs he
    obtain ⟨j, hj⟩ := mem_plain hs
    refine List.any_eq_true.mpr ⟨some (.str s), ?_, rfl⟩
    rw [hres]
    refine List.mem_map.mpr ⟨_, hj, ?_⟩
    have : ¬ numericTexts env (cellsUpTo rows j) = true := by
      intro h
      have := numericTexts_mem.mp h s (by
        unfold cellsUpTo
        exact plain_mem (j := j) (List.mem_filter.mpr ⟨hj, by simp⟩))
      rw [he] at this
      simp at this
    simp [this]
  have htype : (resolvedRuns env o rows).any isText = true → columnType o.prec (resolvedRuns env o rows) = .utf8 := by
    intro h
    unfold columnType
    rw [hanyTs, hanyNum, h]
    rfl
  refine ⟨⟨?_, ?_⟩, ?_⟩
  · intro h s hs
    rw [← Option.ne_none_iff_isSome]
    intro he
    have : (fetchedRuns env o rows).dtype = .utf8 := htype (hbad s hs he)
    rw [this] at h
    simp at h
  · intro h
    have hall : ∀ j, numericTexts env (cellsUpTo rows j) = true :=
      fun j => numericTexts_mem.mpr fun s hs => h s (hup j _ hs)
    refine columnType_nums o.prec _ ?_ hanyNum
    intro v hv
    rw [hres] at hv
    obtain ⟨r, hr, e⟩ := List.mem_map.mp hv
    cases r with
    | none => simp at e
    | some r =>
      obtain ⟨j, w⟩ := r
      have hw := plain_mem hr
      simp only [Option.map_some, Option.some.injEq, hall, if_true] at e
      subst e
      cases w with
      | ts m => exact absurd hw (hts m)
      | i8 m => exact absurd hw (hi m)
      | str s => exact ⟨_, rfl⟩
      | f8 x => exact ⟨_, rfl⟩
  · rintro ⟨s, hs, he⟩
    unfold fetchedRuns materialise
    rw [htype (hbad s hs he), hres, List.map_map]
    congr 1
    apply List.map_congr_left
    intro r hr
    cases r with
    | none => rfl
    | some r =>
      obtain ⟨j, v⟩ := r
      simp only [Function.comp, Option.map_some, rendered]
      congr 2
      split <;> cases v <;> rfl

/-- C68.  Temporal resolution, in a column with a moment (and no shared strings): the result is a column of moments if
and only if each run of texts is all dates or, with numbers wanted too, all numbers. -/
theorem C68_temporal_exact (env : Env) (o : ConcatOpts) (hd : o.confDt = true) (rows : List (Option (Nat × Val)))
    (hi : ∀ n, some (.i8 n) ∉ plainCells rows) (hts : ∃ n, some (.ts n) ∈ plainCells rows) :
    (fetchedRuns env o rows).dtype = .ts ↔
      ∀ j s, some (j, .str s) ∈ rows →
        (∀ t, some (.str t) ∈ runCells rows j → (textMoment env o t).isSome = true) ∨
        o.confNum = true ∧ ∀ t, some (.str t) ∈ runCells rows j → (env.parseF8 t).isSome = true := by
  have h1 : (plainCells rows).any isTs = true := by
    obtain ⟨x, hx⟩ := hts
    exact List.any_eq_true.mpr ⟨_, hx, rfl⟩
  have hres : resolvedRuns env o rows = rows.map (Option.map fun r => asMoment env o (runCells rows r.1) r.2) := by
    unfold resolvedRuns
    rw [h1, hd]
    rfl
  have hanyTs : (resolvedRuns env o rows).any isTs = true := by
    obtain ⟨x, hx⟩ := hts
    obtain ⟨j, hj⟩ := mem_plain hx
    refine List.any_eq_true.mpr ⟨some (.ts x), ?_, rfl⟩
    rw [hres]
    exact List.mem_map.mpr ⟨_, hj, rfl⟩
  constructor
  · intro h j s hs
    by_contra hno
    simp only [not_or, not_and] at hno
    have h2 : (resolvedRuns env o rows).any isText = true := by
      refine List.any_eq_true.mpr ⟨some (.str s), ?_, rfl⟩
      rw [hres]
      refine List.mem_map.mpr ⟨_, hs, ?_⟩
      have hm : ¬ momentTexts env o (runCells rows j) = true := fun hm => hno.1 (momentTexts_mem.mp hm)
      have hn : ¬ (o.confNum && numericTexts env (runCells rows j)) = true := by
        rw [Bool.and_eq_true]
        exact fun hn => hno.2 hn.1 (numericTexts_mem.mp hn.2)
      simp only [Option.map_some, asMoment, if_neg hm, if_neg hn]
    have : (fetchedRuns env o rows).dtype = .utf8 := by
      show columnType _ _ = _
      unfold columnType
      rw [hanyTs, h2]
      cases (resolvedRuns env o rows).any isNum <;> rfl
    rw [this] at h
    cases h
  · intro h
    refine columnType_moments o.prec _ ?_ hanyTs
    intro v hv
    rw [hres] at hv
    obtain ⟨r, hr, e⟩ := List.mem_map.mp hv
    cases r with
    | none => simp at e
    | some r =>
      obtain ⟨j, w⟩ := r
      have hw := plain_mem hr
      simp only [Option.map_some, Option.some.injEq] at e
      subst e
      cases w with
      | ts m => exact ⟨_, rfl⟩
      | i8 m => exact absurd hw (hi m)
      | f8 x => exact ⟨_, rfl⟩
      | str s =>
        simp only [asMoment]
        rcases h j s hr with h | ⟨hc, h⟩
        · rw [if_pos (momentTexts_mem.mpr h)]
          exact ⟨_, rfl⟩
        · split
          · exact ⟨_, rfl⟩
          · rw [hc, numericTexts_mem.mpr h]
            exact ⟨_, rfl⟩

/-- A run of dates and a run of serial numbers beside a date: moments. -/
example : exReadR true true [] [dt 0 0 25570, tx 1 0 ['D', '1'], dt 2 0 25571, tx 3 0 ['7']] =
      .ok [.arr ⟨.ts, [some (.ts 86400000), some (.ts 86400000), some (.ts 172800000), some (.ts (-2208470400000))]⟩] ∧
    exReadR true true [] [dt 0 0 25570, tx 1 0 ['D', '1'], tx 2 0 ['7']] =
      .ok [.arr ⟨.utf8, [some (.str ['T', '8', '6', '4', '0', '0', '0', '0', '0']), some (.str ['D', '1']),
        some (.str ['7'])]⟩] := by
  decide +kernel

/-- `5`, `007`, `3`, then `x` and `08` in one run: `007` is rewritten, `08` is not. -/
example : exReadR false true [some ['0', '0', '7'], some ['x'], some ['0', '8']]
    [nm 0 0 5, sh 1 0 0, nm 2 0 3, sh 3 0 1, sh 4 0 2] =
      .ok [.arr ⟨.utf8, [some (.str ['5']), some (.str ['7']), some (.str ['3']), some (.str ['x']),
        some (.str ['0', '8'])]⟩] ∧
    numberedRows demoEnv true [some ['0', '0', '7'], some ['x'], some ['0', '8']]
        (rawColumn [nm 0 0 5, sh 1 0 0, nm 2 0 3, sh 3 0 1, sh 4 0 2]) =
      [some (1, .f8 (.fin 5)), some (2, .str ['0', '0', '7']), some (3, .f8 (.fin 3)), some (4, .str ['x']),
        some (4, .str ['0', '8'])] := by
  decide +kernel

/-- The exact theorem on that sheet. -/
example : readCells demoEnv exLib (fun _ => none) (fun _ _ => .ok false) {}
    (freshSeries [some ['0', '0', '7'], some ['x']] true ⟨false, true, [], 6⟩)
    [nm 0 0 5, sh 1 0 0, nm 2 0 3, sh 3 0 1] =
      .ok ⟨[unnamedDot ++ ['0']], [.arr (fetchedRuns demoEnv ⟨false, true, [], 6⟩
        [some (1, .f8 (.fin 5)), some (2, .str ['0', '0', '7']), some (3, .f8 (.fin 3)), some (4, .str ['x'])])]⟩ := by
  decide +kernel

end Rxls
