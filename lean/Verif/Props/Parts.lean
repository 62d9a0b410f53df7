import Verif.Props.TakeRows
import Verif.Props.Again
import Verif.Spec.Parts

/-! # Property C125: a sheet read in two parts -/

namespace Rxls

theorem columnType_append (prec : Nat) (a b : List (Option Val)) (ha : ∀ n, some (.i8 n) ∉ a) (hb : ∀ n, some (.i8 n) ∉ b) :
    ((∃ v, some v ∈ a) → (∃ v, some v ∈ b) → columnType prec (a ++ b) = (columnType prec a).joined (columnType prec b)) ∧
    ((¬∃ v, some v ∈ a) → columnType prec (a ++ b) = columnType prec b) ∧
    ((¬∃ v, some v ∈ b) → columnType prec (a ++ b) = columnType prec a) ∧
    (columnType prec a = columnType prec b → columnType prec (a ++ b) = columnType prec a) := by
  have key : ∀ l : List (Option Val), (∀ n, some (.i8 n) ∉ l) →
      ((∃ v, some v ∈ l) ↔ (l.any isTs = true ∨ l.any isNum = true ∨ l.any isText = true)) ∧
      (l.any isNum = false → l.all (wholeNum prec) = true) := by
    intro l hl
    refine ⟨⟨?_, ?_⟩, ?_⟩
    · rintro ⟨v, hv⟩
      cases v with
      | str s => exact .inr (.inr (List.any_eq_true.mpr ⟨_, hv, rfl⟩))
      | f8 x => exact .inr (.inl (List.any_eq_true.mpr ⟨_, hv, rfl⟩))
      | i8 n => exact absurd hv (hl n)
      | ts n => exact .inl (List.any_eq_true.mpr ⟨_, hv, rfl⟩)
    · rintro (h | h | h) <;>
      · obtain ⟨v, hv, e⟩ := List.any_eq_true.mp h
        cases v with
        | none => cases e
        | some v => exact ⟨v, hv⟩
    · intro h
      rw [List.all_eq_true]
      intro v hv
      have h1 : isNum v = false := by
        have := List.any_eq_false.mp h v hv
        simpa using this
      match v, h1 with
      | none, _ => rfl
      | some (.str _), _ => rfl
      | some (.i8 _), _ => rfl
      | some (.ts _), _ => rfl
  obtain ⟨ka, ka'⟩ := key a ha
  obtain ⟨kb, kb'⟩ := key b hb
  rw [ka, kb]
  unfold columnType DType.joined
  simp only [List.any_append, List.all_append]
  revert ka' kb'
  generalize a.any isTs = t1
  generalize a.any isNum = n1
  generalize a.any isText = s1
  generalize a.all (wholeNum prec) = w1
  generalize b.any isTs = t2
  generalize b.any isNum = n2
  generalize b.any isText = s2
  generalize b.all (wholeNum prec) = w2
  revert t1 n1 s1 w1 t2 n2 s2 w2
  decide +kernel

theorem materialise_value (env : Env) (prec : Nat) (l : List (Option Val)) :
    (materialise env prec l).HasValue ↔ ∃ v, some v ∈ l := by
  unfold Arr.HasValue materialise
  constructor
  · rintro ⟨v, hv⟩
    obtain ⟨w, hw, e⟩ := List.mem_map.mp hv
    cases w with
    | none => cases e
    | some w => exact ⟨w, hw⟩
  · rintro ⟨v, hv⟩
    exact ⟨_, List.mem_map.mpr ⟨_, hv, rfl⟩⟩

theorem map_nulls {α β : Type} (f g : α → β) {l : List (Option α)} (h : ¬∃ v, some v ∈ l) :
    l.map (Option.map f) = l.map (Option.map g) := by
  refine List.map_congr_left fun v hv => ?_
  cases v with
  | none => rfl
  | some v => exact absurd ⟨v, hv⟩ h

/-- **C125** for a column: the array of two parts in terms of the arrays of the parts. -/
theorem C125_column (env : Env) (o : ConcatOpts) (hd : o.confDt = false) (hn : o.confNum = false)
    (a b : List (Option Val)) (ha : ∀ n, some (.i8 n) ∉ a) (hb : ∀ n, some (.i8 n) ∉ b) :
    (fetched env o a).Joins (fetched env o b) (fetched env o (a ++ b)) := by
  have hr : ∀ l, resolved env o l = l := by
    intro l
    unfold resolved
    simp [hd, hn]
  unfold fetched
  rw [hr, hr, hr]
  obtain ⟨h1, h2, h3, h4⟩ := columnType_append o.prec a b ha hb
  constructor
  · intro h
    have h4 := h4 h
    have h : columnType o.prec a = columnType o.prec b := h
    unfold materialise
    rw [h4, List.map_append, h]
  · intro h
    rw [materialise_value] at h
    unfold materialise
    rw [h2 h, List.map_append, map_nulls (rendered env (columnType o.prec b)) (rendered env (columnType o.prec a)) h]
  · intro h
    rw [materialise_value] at h
    unfold materialise
    rw [h3 h, List.map_append, map_nulls (rendered env (columnType o.prec a)) (rendered env (columnType o.prec b)) h]
  · intro ha hb
    rw [materialise_value] at ha hb
    exact h1 ha hb
  · simp [materialise]

theorem column_cell (g : VGrid) (k : Int) (i : Nat) (h : i < g.length) : cellAt (g.column k) i = g.at k i := by
  unfold cellAt VGrid.column
  rw [List.getElem?_map, List.getElem?_range h]
  rfl

theorem column_take (g : VGrid) (k : Int) (m i : Nat) (h : i < m) (hm : m ≤ g.length) :
    cellAt ((g.top m).column k) i = cellAt (g.column k) i := by
  rw [column_cell _ _ _ (by rw [List.length_take]; omega), column_cell _ _ _ (by omega)]
  unfold VGrid.at
  rw [List.getD_eq_getElem?_getD, List.getD_eq_getElem?_getD, List.getElem?_take_of_lt h]

theorem window_part (g : VGrid) (k : Int) (m off len : Nat) (h : off + len ≤ m) (hm : m ≤ g.length) :
    window ((g.top m).column k) off len = window (g.column k) off len := by
  unfold window
  refine List.map_congr_left fun i hi => ?_
  rw [List.mem_range] at hi
  exact column_take g k m _ (by omega) hm

theorem window_split {α : Type} (col : List (Option α)) (off a b : Nat) :
    window col off (a + b) = window col off a ++ window col (off + a) b := by
  unfold window
  rw [List.range_add, List.map_append, List.map_map]
  congr 1
  refine List.map_congr_left fun i _ => ?_
  simp [Nat.add_assoc]

theorem table_simple {A D : Type} (env : Env) {lib : Lib A D} (hlib : lib.Lawful) (search : Str → Option (Str → Bool))
    (reMatch : Str → Str → Py Bool) (args : ReadArgs D) (o : ConcatOpts) (g : VGrid)
    (hlk : args.lookup = .none) (hfl : args.filters = .none) (hdt : args.dtypes = .none) (names : List Str)
    (hn : namesFor env o g.column g.columns 0 args.header = .ok names) :
    g.table env lib search reMatch args o = .ok ⟨names, g.columns.map fun k => lib.ofFetched (.arr (fetched env o
      (window (g.column k) (args.header.height + args.skipAfter).toNat
        ((g.maxSpan : Int) - args.header.height - args.skipAfter).toNat)))⟩ := by
  unfold VGrid.table sheetTable
  simp only [hlk, lookupRow, hn, hfl, filterKeys, maskFor, List.isEmpty_nil, if_true, hdt]
  refine Eq.trans (tableOf_ok hlib env o g.column g.columns names (namesFor_length hn) .none _ _ none rfl).1 ?_
  simp only [pickRows, Nat.cast_zero, add_zero, sub_zero]

/-- **C125** for the values of sheets.  A sheet with a full column whose first `m` rows have values in all columns: the table of
these rows and that of the others, read with `skip_rows_after_header`, join to that of the sheet. -/
theorem C125_table {A D : Type} (env : Env) (lib : Lib A D) (hlib : lib.Lawful) (search : Str → Option (Str → Bool))
    (reMatch : Str → Str → Py Bool) (args : ReadArgs D) (hlk : args.lookup = .none) (hfl : args.filters = .none)
    (hdt : args.dtypes = .none) (o : ConcatOpts) (hd : o.confDt = false) (hn : o.confNum = false) (g : VGrid) (hg : g.Plain)
    (c : Int) (hf : g.FullColumn c) (m : Nat) (hm : m ≤ g.length) (hcols : (g.top m).columns = g.columns)
    (hh : 0 ≤ args.header.height) (hs : 0 ≤ args.skipAfter) (hhs : args.header.height + args.skipAfter ≤ m)
    (t : Table A) (h : g.table env lib search reMatch args o = .ok t) :
    ∃ t₁ t₂, (g.top m).table env lib search reMatch args o = .ok t₁ ∧
      g.table env lib search reMatch { args with skipAfter := m - args.header.height } o = .ok t₂ ∧
      TableJoins lib t₁ t₂ t := by
  obtain ⟨names, hnm⟩ : ∃ names, namesFor env o g.column g.columns 0 args.header = .ok names := by
    obtain ⟨r, names, fs, mk, arrays, g1, g2, _⟩ := sheetTable_inv h
    rw [hlk, lookupRow] at g1
    injection g1 with g1
    injection g1 with g1
    subst g1
    exact ⟨names, g2⟩
  have hnm1 : namesFor env o (g.top m).column (g.top m).columns 0 args.header = .ok names := by
    rw [hcols, ← hnm]
    cases hhd : args.header with
    | names l => rfl
    | rows n =>
      rw [hhd] at hhs hh
      simp only [HeaderArg.height] at hhs hh
      unfold namesFor
      dsimp only
      congr 3
      congr 1
      refine List.map_congr_left fun k _ => ?_
      rw [window_part g k m 0 n.toNat (by omega) hm]
  have hms : g.maxSpan = g.length := full_maxSpan hf
  have hms1 : (g.top m).maxSpan = m := by
    rw [full_maxSpan (k := c) (g := g.top m) fun row hr => hf row (List.mem_of_mem_take hr), List.length_take]
    omega
  have e := table_simple env hlib search reMatch args o g hlk hfl hdt names hnm
  rw [h] at e
  injection e with e
  refine ⟨_, _, table_simple env hlib search reMatch args o (g.top m) hlk hfl hdt names hnm1,
    table_simple env hlib search reMatch { args with skipAfter := m - args.header.height } o g hlk hfl hdt names hnm, ?_⟩
  subst e
  have hlen := namesFor_length hnm
  refine ⟨rfl, rfl, ?_⟩
  rw [hms, hms1, hcols]
  refine ⟨g.columns.map fun k => fetched env o (window ((g.top m).column k) (args.header.height + args.skipAfter).toNat
        ((m : Int) - args.header.height - args.skipAfter).toNat),
    g.columns.map fun k => fetched env o (window (g.column k) (args.header.height + (m - args.header.height)).toNat
        ((g.length : Int) - args.header.height - (m - args.header.height)).toNat),
    g.columns.map fun k => fetched env o (window (g.column k) (args.header.height + args.skipAfter).toNat
        ((g.length : Int) - args.header.height - args.skipAfter).toNat),
    by rw [List.map_map]; rfl, by rw [List.map_map]; rfl, by rw [List.map_map]; rfl,
    by simp [hlen], by simp [hlen], by simp [hlen], ?_⟩
  intro j x y z hx hy hz
  rw [List.getElem?_map] at hx hy hz
  obtain ⟨k, hk, rfl⟩ := Option.map_eq_some_iff.mp hx
  rw [hk, Option.map_some, Option.some_inj] at hy hz
  subst hy hz
  rw [window_part g k m _ _ (by omega) hm]
  rw [show ((g.length : Int) - args.header.height - args.skipAfter).toNat =
      ((m : Int) - args.header.height - args.skipAfter).toNat +
        ((g.length : Int) - args.header.height - (m - args.header.height)).toNat by omega, window_split]
  rw [show (args.header.height + args.skipAfter).toNat + ((m : Int) - args.header.height - args.skipAfter).toNat =
      (args.header.height + (m - args.header.height)).toNat by omega]
  have hw : ∀ off len n, some (.i8 n) ∉ window (g.column k) off len := by
    intro off len n hmem
    exact plain_column hg k n (mem_picked (m := none) hmem)
  exact C125_column env o hd hn _ _ (hw _ _) (hw _ _)

theorem plain_xlsx (env : Env) (isNull : Str → Bool) (formats : List StyleClass) (shared : List Str) (g : TGrid) :
    (g.values env isNull formats shared).Plain := by
  intro row hr p hp n e
  obtain ⟨r, _, rfl⟩ := List.mem_map.mp hr
  obtain ⟨c, _, hc⟩ := List.mem_filterMap.mp hp
  obtain ⟨v, hv, rfl⟩ := Option.map_eq_some_iff.mp hc
  have e : v = .i8 n := e
  subst e
  unfold TCell.value at hv
  split at hv
  · obtain ⟨_, _, e⟩ := Option.map_eq_some_iff.mp hv
    cases e
  · split at hv
    · obtain ⟨_, _, e⟩ := Option.map_eq_some_iff.mp hv
      cases e
    · obtain ⟨_, _, e⟩ := Option.map_eq_some_iff.mp hv
      cases e
    · cases hv

theorem plain_xlsb (temporal : List Bytes) (shared : List Str) (isNull : Str → Bool) (g : Grid) :
    (g.values temporal shared isNull).Plain := by
  intro row hr p hp n e
  obtain ⟨r, _, rfl⟩ := List.mem_map.mp hr
  obtain ⟨c, _, rfl⟩ := List.mem_map.mp hp
  have e : c.value temporal shared = .i8 n := e
  unfold GCell.value at e
  revert e
  repeat' split
  all_goals intro e; cases e

theorem plain_without {g : VGrid} (h : g.Plain) (cols : List Int) : (g.without cols).Plain := by
  intro row hr p hp
  obtain ⟨r, hr', rfl⟩ := List.mem_map.mp hr
  exact h r hr' p (List.mem_filter.mp hp).1

/-- Two reads of a sheet, over any way to read it. -/
theorem parts_read {A D : Type} (env : Env) (lib : Lib A D) (hlib : lib.Lawful) (search : Str → Option (Str → Bool))
    (reMatch : Str → Str → Py Bool) (args : ReadArgs D) (hlk : args.lookup = .none) (hfl : args.filters = .none)
    (hdt : args.dtypes = .none) (o : ConcatOpts) (hd : o.confDt = false) (hn : o.confNum = false) (V : VGrid) (hp : V.Plain)
    (c : Int) (hf : V.FullColumn c) (t : Nat) (h0 : 0 < t) (ht : t + 1 < V.length)
    (hcols : (V.top (t + 1)).columns = V.columns) (hh : 0 ≤ args.header.height) (hs : 0 ≤ args.skipAfter)
    (hhs : args.header.height + args.skipAfter ≤ t) (read : Nat → Int → Py (Table A))
    (hread : ∀ (t : Nat) (s : Int), args.header.height + s < rowsTaken V.length t →
      read t s = if (V.top (rowsTaken V.length t)).flatten = [] then .error .valueError
        else (V.top (rowsTaken V.length t)).table env lib search reMatch { args with skipAfter := s } o)
    (tab : Table A) (hr : read 0 args.skipAfter = .ok tab) :
    ∃ t₁ t₂, read t args.skipAfter = .ok t₁ ∧ read 0 ((t + 1 : Nat) - args.header.height) = .ok t₂ ∧
      TableJoins lib t₁ t₂ tab := by
  have e0 : rowsTaken V.length 0 = V.length := rfl
  have e1 : rowsTaken V.length t = t + 1 := by
    unfold rowsTaken
    rw [if_neg (by omega)]
    omega
  have ne : ∀ n, 0 < n → (V.top n).flatten ≠ [] := by
    intro n hn h
    cases hv : V with
    | nil => rw [hv] at ht; simp at ht
    | cons r rs =>
      obtain ⟨q, hq, _⟩ := hf r (by rw [hv]; simp)
      rw [hv] at h
      obtain ⟨n, rfl⟩ : ∃ k, n = k + 1 := ⟨n - 1, by omega⟩
      simp only [VGrid.top, List.take_succ_cons, List.flatten_cons, List.append_eq_nil_iff] at h
      rw [h.1] at hq
      cases hq
  have top : V.top V.length = V := List.take_length
  rw [hread 0 _ (by rw [e0]; omega), e0, if_neg (ne _ (by omega)), top] at hr
  obtain ⟨t₁, t₂, h1, h2, h3⟩ := C125_table env lib hlib search reMatch args hlk hfl hdt o hd hn V hp c hf (t + 1) (by omega) hcols
    hh hs (by push_cast; omega) tab hr
  refine ⟨t₁, t₂, ?_, ?_, h3⟩
  · rw [hread t _ (by rw [e1]; push_cast; omega), e1, if_neg (ne _ (by omega))]
    exact h1
  · rw [hread 0 _ (by rw [e0]; push_cast; omega), e0, if_neg (ne _ (by omega)), top]
    exact h2

/-- **C125**, XLSX.  A sheet with a full column whose first `t + 1` rows have values in all columns, read without filters,
lookup, `dtypes` and conflict resolution: the table read with `take_rows=t`, and the one read with
`skip_rows_after_header` `t + 1` less the rows of the header, join to the table of the sheet. -/
theorem C125_xlsx {A D : Type} (env : Env) (lib : Lib A D) (hlib : lib.Lawful) (search : Str → Option (Str → Bool))
    (reMatch : Str → Str → Py Bool) (toInt : Str → Option Int) (a : FileArgs D)
    (hk : a.iter.skipRows = 0) (ha : a.table.Sensible) (p : Package) (hp : workbookXml ∈ p.names) (isNull : Str → Bool)
    (hnull : ∀ s, isNull s = (decide (s ∈ errorTexts) || a.nulls.asks s)) (o : ConcatOpts)
    (ho : o = concatOpts a.conflict a.formats a.precision) (hd : o.confDt = false) (hn : o.confNum = false)
    (formats : List StyleClass) (shared : List Str) (g : TGrid)
    (h : p.xlsx.Holds env toInt a.iter.sheet isNull formats shared g) (W V : VGrid)
    (hW : W = g.values env isNull formats shared)
    (hV : V = W.without a.iter.skipCols) (c : Int) (hf : W.FullColumn c) (hc : c ∉ a.iter.skipCols)
    (t : Nat) (h0 : 0 < t) (ht : t + 1 < W.length) (hcols : (V.top (t + 1)).columns = V.columns)
    (hlk : a.table.lookup = .none) (hfl : a.table.filters = .none) (hdt : a.table.dtypes = .none)
    (hs : 0 ≤ a.table.skipAfter) (hhs : a.table.header.height + a.table.skipAfter ≤ t)
    (tab : Table A) (hr : readFile env lib search reMatch toInt { a with iter.takeRows := 0 } p = .ok tab) :
    ∃ t₁ t₂, readFile env lib search reMatch toInt { a with iter.takeRows := t } p = .ok t₁ ∧
      readFile env lib search reMatch toInt
        { a with iter.takeRows := 0, table.skipAfter := (t + 1 : Nat) - a.table.header.height } p = .ok t₂ ∧
      TableJoins lib t₁ t₂ tab := by
  have hwl : W.length = V.length := by rw [hV]; simp [VGrid.without]
  have hVf : V.FullColumn c := by rw [hV]; exact without_full hf hc
  refine parts_read env lib hlib search reMatch a.table hlk hfl hdt o hd hn V
    (by rw [hV, hW]; exact plain_without (plain_xlsx _ _ _ _ _) _) c hVf t h0 (by omega) hcols ha.header hs hhs
    (fun t s => readFile env lib search reMatch toInt { a with iter.takeRows := t, table.skipAfter := s } p) ?_ tab hr
  intro t s hlt
  have hle : rowsTaken V.length t ≤ V.length := by unfold rowsTaken; split <;> omega
  refine C69_xlsx env lib search reMatch toInt { a with iter.takeRows := t, table.skipAfter := s } 0 t hk rfl ⟨ha.lookup, ha.header⟩ p hp isNull hnull o
      ho formats shared g h _ ?_
    (fun k => Resolvable.off env hd hn _ _) ?_
  · rw [← hW, (full_shown hf hc t a.iter.keepEmpty).1, ← hV, hwl]
  · intro _ row hrow
    simp only [hlk, lookupRow, Except.ok.injEq, Option.some.injEq] at hrow
    subst hrow
    rw [full_maxSpan (k := c) (g := V.top (rowsTaken V.length t)) fun row hr => hVf row (List.mem_of_mem_take hr),
      List.length_take, Nat.min_eq_left hle]
    simp only [Nat.cast_zero]
    omega

/-- **C125**, XLSB: the same. -/
theorem C125_xlsb {A D : Type} (env : Env) (lib : Lib A D) (hlib : lib.Lawful) (search : Str → Option (Str → Bool))
    (reMatch : Str → Str → Py Bool) (toInt : Str → Option Int) (a : FileArgs D)
    (hk : a.iter.skipRows = 0) (ha : a.table.Sensible) (p : Package) (hp : workbookXml ∉ p.names) (hp' : workbookBin ∈ p.names)
    (o : ConcatOpts) (ho : o = concatOpts a.conflict a.formats a.precision) (hd : o.confDt = false) (hn : o.confNum = false)
    (temporal : List Bytes) (shared : List Str) (g : Grid)
    (h : p.xlsb.Holds a.iter.sheet a.nulls.asks temporal shared g) (W V : VGrid)
    (hW : W = g.values temporal shared a.nulls.asks)
    (hV : V = W.without a.iter.skipCols) (c : Int) (hf : W.FullColumn c) (hc : c ∉ a.iter.skipCols)
    (t : Nat) (h0 : 0 < t) (ht : t + 1 < W.length) (hcols : (V.top (t + 1)).columns = V.columns)
    (hlk : a.table.lookup = .none) (hfl : a.table.filters = .none) (hdt : a.table.dtypes = .none)
    (hs : 0 ≤ a.table.skipAfter) (hhs : a.table.header.height + a.table.skipAfter ≤ t)
    (tab : Table A) (hr : readFile env lib search reMatch toInt { a with iter.takeRows := 0 } p = .ok tab) :
    ∃ t₁ t₂, readFile env lib search reMatch toInt { a with iter.takeRows := t } p = .ok t₁ ∧
      readFile env lib search reMatch toInt
        { a with iter.takeRows := 0, table.skipAfter := (t + 1 : Nat) - a.table.header.height } p = .ok t₂ ∧
      TableJoins lib t₁ t₂ tab := by
  have hwl : W.length = V.length := by rw [hV]; simp [VGrid.without]
  have hVf : V.FullColumn c := by rw [hV]; exact without_full hf hc
  refine parts_read env lib hlib search reMatch a.table hlk hfl hdt o hd hn V
    (by rw [hV, hW]; exact plain_without (plain_xlsb _ _ _ _) _) c hVf t h0 (by omega) hcols ha.header hs hhs
    (fun t s => readFile env lib search reMatch toInt { a with iter.takeRows := t, table.skipAfter := s } p) ?_ tab hr
  intro t s hlt
  have hle : rowsTaken V.length t ≤ V.length := by unfold rowsTaken; split <;> omega
  refine C69_xlsb env lib search reMatch toInt { a with iter.takeRows := t, table.skipAfter := s } 0 t hk rfl ⟨ha.lookup, ha.header⟩ p hp hp' o
      ho temporal shared g h _ ?_
    (fun k => Resolvable.off env hd hn _ _) ?_
  · rw [← hW, (full_shown hf hc t a.iter.keepEmpty).2, ← hV, hwl]
  · intro _ row hrow
    simp only [hlk, lookupRow, Except.ok.injEq, Option.some.injEq] at hrow
    subst hrow
    rw [full_maxSpan (k := c) (g := V.top (rowsTaken V.length t)) fun row hr => hVf row (List.mem_of_mem_take hr),
      List.length_take, Nat.min_eq_left hle]
    simp only [Nat.cast_zero]
    omega

/-! ## Examples -/

/-- Five rows: the parts have two and three of them below the header. -/
def exParts : VGrid :=
  [[(0, .str ['n']), (1, .str ['m'])], [(0, .f8 (.fin 1)), (1, .str ['a'])], [(0, .f8 (.fin 2)), (1, .str ['b'])],
    [(0, .f8 (.fin 3)), (1, .str ['c'])], [(0, .f8 (.fin (7 / 2)))], [(0, .f8 (.fin 5)), (1, .str ['d'])]]

/-- The parts of a column may have other types than the column: the first part of the numbers is int64. -/
theorem C125_types_finding :
    ((exParts.top 3).table textEnv exLib (fun _ => none) (fun _ _ => .ok false) { header := .rows 1 } ⟨false, false, [], 6⟩).map
      (·.arrays) = .ok [.arr ⟨.i8, [some (.i8 1), some (.i8 2)]⟩, .arr ⟨.utf8, [some (.str ['a']), some (.str ['b'])]⟩] ∧
    (exParts.table textEnv exLib (fun _ => none) (fun _ _ => .ok false) { header := .rows 1, skipAfter := 2 } ⟨false, false, [], 6⟩).map
      (·.arrays) = .ok [.arr ⟨.f8, [some (.f8 (.fin 3)), some (.f8 (.fin (7 / 2))), some (.f8 (.fin 5))]⟩,
        .arr ⟨.utf8, [some (.str ['c']), none, some (.str ['d'])]⟩] ∧
    (exParts.table textEnv exLib (fun _ => none) (fun _ _ => .ok false) { header := .rows 1 } ⟨false, false, [], 6⟩).map
      (·.arrays) = .ok [.arr ⟨.f8, [some (.f8 (.fin 1)), some (.f8 (.fin 2)), some (.f8 (.fin 3)), some (.f8 (.fin (7 / 2))), some (.f8 (.fin 5))]⟩,
        .arr ⟨.utf8, [some (.str ['a']), some (.str ['b']), some (.str ['c']), none, some (.str ['d'])]⟩] := by
  decide +kernel

/-- The conditions of `C125_table` hold there. -/
example : exParts.FullColumn 0 ∧ (exParts.top 3).columns = exParts.columns ∧ exParts.length = 6 := by
  refine ⟨?_, by decide +kernel, rfl⟩
  unfold VGrid.FullColumn exParts
  decide +kernel

/-- A file with five rows of texts (C119), read in two parts: three rows, two rows. -/
example : exFiveRead 2 (.rows 0) 0 = .ok [.arr ⟨.utf8, [some (.str ['1']), some (.str ['2']), some (.str ['3'])]⟩] ∧
    exFiveRead 0 (.rows 0) 3 = .ok [.arr ⟨.utf8, [some (.str ['4']), some (.str ['5'])]⟩] ∧
    exFiveRead 0 (.rows 0) 0 = .ok [.arr ⟨.utf8, [some (.str ['1']), some (.str ['2']), some (.str ['3']), some (.str ['4']),
      some (.str ['5'])]⟩] := by decide +kernel

/-- Joining types. -/
example : DType.i8.joined .f8 = .f8 ∧ DType.ts.joined .i8 = .utf8 ∧ DType.ts.joined .ts = .ts ∧ DType.f8.joined .utf8 = .utf8 := by
  decide

/-- A part without a value counts as text, and yet it takes the type of the other part. -/
example : (fetched textEnv ⟨false, false, [], 6⟩ [none, none]).dtype = .utf8 ∧
    fetched textEnv ⟨false, false, [], 6⟩ ([none, none] ++ [some (.f8 (.fin 2))]) = ⟨.i8, [none, none, some (.i8 2)]⟩ := by
  decide +kernel

/-- Why all columns need a value in the first part: a column that starts later is missing there. -/
example : (VGrid.top [[(0, .f8 (.fin 1))], [(0, .f8 (.fin 2)), (1, .str ['x'])]] 1).columns = [0] ∧
    VGrid.columns [[(0, .f8 (.fin 1))], [(0, .f8 (.fin 2)), (1, .str ['x'])]] = [0, 1] := by decide +kernel

end Rxls
