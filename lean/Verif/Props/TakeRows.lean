import Verif.Props.ReadFile
import Verif.Spec.TakeRows

/-! # Property C119: rows taken and rows skipped after the header -/

namespace Rxls

theorem without_full {g : VGrid} {k : Int} {cols : List Int} (h : g.FullColumn k) (hk : k ∉ cols) :
    (g.without cols).FullColumn k := by
  intro row hrow
  obtain ⟨r, hr, rfl⟩ := List.mem_map.mp hrow
  obtain ⟨p, hp, e⟩ := h r hr
  exact ⟨p, List.mem_filter.mpr ⟨hp, by simpa [e] using hk⟩, e⟩

theorem full_ne {g : VGrid} {k : Int} (h : g.FullColumn k) : ∀ row ∈ g, row ≠ [] := by
  rintro row hr rfl
  obtain ⟨p, hp, _⟩ := h _ hr
  simp at hp

/-- Both formats give the same rows of a sheet with a full column. -/
theorem full_shown {g : VGrid} {k : Int} {cols : List Int} (h : g.FullColumn k) (hk : k ∉ cols) (t : Nat) (keep : Bool) :
    g.shownXlsx 0 t keep cols = (g.without cols).take (rowsTaken g.length t) ∧
      g.shownXlsb 0 t keep cols = (g.without cols).take (rowsTaken g.length t) := by
  have hf := without_full h hk
  have hn := full_ne hf
  have hl : (g.without cols).length = g.length := by simp [VGrid.without]
  have h1 : (g.without cols).take (rowsTaken g.length t) =
      if t = 0 then g.without cols else (g.without cols).take (t + 1) := by
    unfold rowsTaken
    split
    · rw [← hl, List.take_length]
    · rw [← hl, Nat.min_comm, ← List.take_eq_take_min]
  rw [h1]
  unfold VGrid.shownXlsx VGrid.shownXlsb xlsxRows xlsbRows
  generalize g.without cols = W at *
  have h2 : W.filter (· ≠ []) = W := List.filter_eq_self.mpr (by simpa using hn)
  have h3 : W.dropWhile List.isEmpty = W := by
    cases W with
    | nil => rfl
    | cons r W =>
      have := hn r (by simp)
      cases r with
      | nil => exact absurd rfl this
      | cons => rfl
  have h4 : (W.takeWhile List.isEmpty).length = 0 := by
    cases W with
    | nil => rfl
    | cons r W =>
      have := hn r (by simp)
      cases r with
      | nil => exact absurd rfl this
      | cons => rfl
  simp only [List.drop_zero, h2, h3, h4, if_true, Nat.add_zero, Nat.mul_zero]
  exact ⟨by cases keep <;> rfl, by cases keep <;> rfl⟩

theorem span_le (g : VGrid) (k : Int) : g.span k ≤ g.length := by
  unfold VGrid.span
  have hm : ∀ r ∈ g.rowsOf k, r < g.length := by
    intro r hr
    simpa using (List.mem_filter.mp hr).1
  split
  · omega
  · rename_i r rs e
    have := hm ((r :: rs).getLast (by simp)) (by rw [e]; exact List.getLast_mem _)
    omega

theorem maxSpan_le (g : VGrid) : g.maxSpan ≤ g.length := by
  unfold VGrid.maxSpan
  generalize g.columns = l
  induction l with
  | nil => simp
  | cons k l ih =>
    simp only [List.map_cons, List.foldr_cons]
    exact max_le (span_le g k) ih

theorem full_span {g : VGrid} {k : Int} (h : g.FullColumn k) : g.span k = g.length := by
  have e : g.rowsOf k = List.range g.length := by
    unfold VGrid.rowsOf
    rw [List.filter_eq_self]
    intro r hr
    rw [List.mem_range] at hr
    obtain ⟨p, hp, e⟩ := h _ (List.getElem_mem hr)
    rw [List.any_eq_true]
    refine ⟨p, ?_, by simpa using e⟩
    rw [List.getD_eq_getElem?_getD, List.getElem?_eq_getElem hr]
    exact hp
  unfold VGrid.span
  split
  · rename_i e'
    rw [e] at e'
    have := congrArg List.length e'
    simpa using this.symm
  · rename_i r rs e'
    rw [e] at e'
    have hr : r = 0 := by
      have := congrArg (fun l => l[0]?) e'
      simp only [List.getElem?_cons_zero] at this
      obtain ⟨_, h2⟩ := List.getElem?_eq_some_iff.mp this
      simpa using h2.symm
    have hlast : (r :: rs).getLast (by simp) = g.length - 1 := by
      have h1 : (r :: rs).getLast? = some (g.length - 1) := by
        rw [← e', List.getLast?_eq_getElem?, List.length_range]
        have : 0 < g.length := by
          have := congrArg List.length e'
          simp at this
          omega
        rw [List.getElem?_range (by omega)]
      rw [List.getLast?_eq_some_getLast (by simp)] at h1
      simpa using h1
    have : 0 < g.length := by
      have := congrArg List.length e'
      simp at this
      omega
    rw [hlast]
    omega

theorem full_maxSpan {g : VGrid} {k : Int} (h : g.FullColumn k) : g.maxSpan = g.length := by
  by_cases hg : g = []
  · subst hg; rfl
  apply Nat.le_antisymm (maxSpan_le g)
  obtain ⟨row, hrow⟩ := List.exists_mem_of_ne_nil g hg
  obtain ⟨p, hp, e⟩ := h row hrow
  have hk : k ∈ g.columns := by
    unfold VGrid.columns VGrid.cols
    rw [List.mem_insertionSort, List.mem_dedup]
    exact List.mem_map.mpr ⟨p, List.mem_flatten.mpr ⟨row, hrow, hp⟩, e⟩
  unfold VGrid.maxSpan
  rw [← full_span h]
  have : ∀ (l : List Int), k ∈ l → g.span k ≤ (l.map g.span).foldr max 0 := by
    intro l
    induction l with
    | nil => simp
    | cons x l ih =>
      intro hx
      simp only [List.map_cons, List.foldr_cons]
      rcases List.mem_cons.mp hx with rfl | hx
      · exact le_max_left _ _
      · exact (ih hx).trans (le_max_right _ _)
  exact this _ hk

/-- The table of a sheet, without lookup and filters. -/
theorem table_arrays {A D : Type} {env : Env} {lib : Lib A D} {search : Str → Option (Str → Bool)}
    {reMatch : Str → Str → Py Bool} {args : ReadArgs D} {o : ConcatOpts} {g : VGrid} {t : Table A}
    (hlk : args.lookup = .none) (hfl : args.filters = .none)
    (h : g.table env lib search reMatch args o = .ok t) :
    t.names.length = g.columns.length ∧
    applyDtypes lib t.names (g.columns.map fun k => lib.ofFetched (.arr (fetched env o (window (g.column k)
        (args.header.height + args.skipAfter).toNat
        ((g.maxSpan : Int) - args.header.height - args.skipAfter).toNat)))) args.dtypes = .ok t.arrays := by
  obtain ⟨r, names, fs, m, arrays, g1, g2, g3, g4, g5, rfl⟩ := sheetTable_inv h
  rw [hlk, lookupRow] at g1
  injection g1 with g1
  injection g1 with g1
  subst g1
  rw [hfl, filterKeys] at g3
  injection g3 with g3
  subst g3
  rw [maskFor, if_pos (by rfl)] at g4
  injection g4 with g4
  subst g4
  simp only [Int.natCast_zero, Int.add_zero, Int.sub_zero, CharP.cast_eq_zero, pickRows] at g5
  exact ⟨namesFor_length g2, g5⟩

theorem table_rows {A D : Type} {env : Env} {lib : Lib A D} (hlib : lib.Lawful) {search : Str → Option (Str → Bool)}
    {reMatch : Str → Str → Py Bool} {args : ReadArgs D} {o : ConcatOpts} {g : VGrid} {t : Table A}
    (hlk : args.lookup = .none) (hfl : args.filters = .none)
    (h : g.table env lib search reMatch args o = .ok t) :
    ∀ a ∈ t.arrays, lib.len a = ((g.maxSpan : Int) - args.header.height - args.skipAfter).toNat := by
  obtain ⟨h1, h2⟩ := table_arrays hlk hfl h
  refine (applyDtypes_len hlib (by simp [h1]) h2 ?_).2
  intro a ha
  obtain ⟨k, _, rfl⟩ := List.mem_map.mp ha
  rw [hlib.of, Fetched.rows, fetched, materialise, List.length_map, resolved_length]
  simp [window]

/-- A column of texts is a column of these texts. -/
theorem fetched_texts (env : Env) (o : ConcatOpts) (cells : List (Option Val))
    (h : ∀ v, some v ∈ cells → ∃ s, v = .str s) : fetched env o cells = ⟨.utf8, cells⟩ := by
  have h1 : cells.any isTs = false := by
    rw [List.any_eq_false]
    intro v hv
    cases v with
    | none => simp [isTs]
    | some v => obtain ⟨x, rfl⟩ := h v hv; simp [isTs]
  have h2 : cells.any isNum = false := by
    rw [List.any_eq_false]
    intro v hv
    cases v with
    | none => simp [isNum]
    | some v => obtain ⟨x, rfl⟩ := h v hv; simp [isNum]
  have hr : resolved env o cells = cells := by
    unfold resolved
    simp [h1, h2]
  have ht : columnType o.prec cells = .utf8 := by
    unfold columnType
    rw [h1, h2]
    cases cells.any isText <;> simp
  unfold fetched materialise
  rw [hr, ht]
  congr 1
  conv_rhs => rw [← List.map_id cells]
  apply List.map_congr_left
  intro v hv
  cases v with
  | none => rfl
  | some v =>
    obtain ⟨s, rfl⟩ := h v hv
    simp [rendered, cellText]

/-- Texts are what a column of texts shows. -/
theorem column_texts {g : VGrid} {k : Int} (h : g.TextColumn k) (off len : Nat) :
    ∀ v, some v ∈ window (g.column k) off len → ∃ s, v = .str s := by
  intro v hv
  unfold window at hv
  obtain ⟨i, _, e⟩ := List.mem_map.mp hv
  unfold cellAt at e
  have : some v ∈ g.column k := by
    cases hx : (g.column k)[off + i]? with
    | none => rw [hx] at e; simp at e
    | some w =>
      rw [hx] at e
      simp only [Option.join_some] at e
      subst e
      exact List.mem_of_getElem? hx
  unfold VGrid.column at this
  obtain ⟨r, hr, e⟩ := List.mem_map.mp this
  unfold VGrid.at at e
  rw [List.mem_range] at hr
  rw [List.getD_eq_getElem?_getD, List.getElem?_eq_getElem hr] at e
  obtain ⟨p, hp, rfl⟩ := Option.map_eq_some_iff.mp e
  exact h _ (List.getElem_mem hr) p (List.mem_of_find?_eq_some hp) (by simpa using List.find?_some hp)

theorem shown_texts {g : VGrid} {k : Int} {cols : List Int} (h : g.TextColumn k) (n : Nat) :
    VGrid.TextColumn ((g.without cols).take n) k := by
  intro row hrow p hp e
  obtain ⟨r, hr, rfl⟩ := List.mem_map.mp (List.mem_of_mem_take hrow)
  exact h r hr p (List.mem_filter.mp hp).1 e

/-- The common part of both formats. -/
theorem taken_table {A D : Type} {env : Env} {lib : Lib A D} {search : Str → Option (Str → Bool)}
    {reMatch : Str → Str → Py Bool} {args : ReadArgs D} {o : ConcatOpts} {W : VGrid} {k : Int} {cols : List Int}
    {n : Nat} {t : Table A} (hf : W.FullColumn k) (hk : k ∉ cols) (hn : n ≤ W.length)
    (hlk : args.lookup = .none) (hfl : args.filters = .none)
    (h : VGrid.table env lib search reMatch args o ((W.without cols).take n) = .ok t) :
    (lib.Lawful → ∀ a ∈ t.arrays, lib.len a = ((n : Int) - args.header.height - args.skipAfter).toNat) ∧
    (args.dtypes = .none → ∀ c, W.TextColumn c → ∀ j : Nat,
      (VGrid.columns ((W.without cols).take n))[j]? = some c →
      t.arrays[j]? = some (lib.ofFetched (.arr ⟨.utf8, window (VGrid.column ((W.without cols).take n) c)
        (args.header.height + args.skipAfter).toNat ((n : Int) - args.header.height - args.skipAfter).toNat⟩))) := by
  have hlen : ((W.without cols).take n).length = n := by simp [VGrid.without, hn]
  have hfull : VGrid.FullColumn ((W.without cols).take n) k := fun row hrow =>
    without_full hf hk row (List.mem_of_mem_take hrow)
  have hms := full_maxSpan hfull
  rw [hlen] at hms
  refine ⟨fun hlib => ?_, fun hd c hc j hj => ?_⟩
  · have := table_rows hlib hlk hfl h
    rwa [hms] at this
  · obtain ⟨_, h2⟩ := table_arrays hlk hfl h
    rw [hd, applyDtypes, hms] at h2
    injection h2 with h2
    rw [← h2, List.getElem?_map, hj, Option.map_some, fetched_texts _ _ _ (column_texts (shown_texts hc n) _ _)]

/-- C119, XLSX.  A sheet with a full column gives, for `take_rows` `t`, the first `t + 1` of its rows (all if `t` is 0)
less the header and the rows skipped after it, whatever the header is; and a column of texts stays one. -/
theorem C119_xlsx {A D : Type} (env : Env) (lib : Lib A D) (hlib : lib.Lawful) (search : Str → Option (Str → Bool))
    (reMatch : Str → Str → Py Bool) (toInt : Str → Option Int) (a : FileArgs D) (t : Nat)
    (hk : a.iter.skipRows = 0) (ht : a.iter.takeRows = t) (ha : a.table.Sensible) (p : Package)
    (hp : workbookXml ∈ p.names) (isNull : Str → Bool) (hnull : ∀ s, isNull s = (decide (s ∈ errorTexts) || a.nulls.asks s))
    (o : ConcatOpts) (ho : o = concatOpts a.conflict a.formats a.precision)
    (formats : List StyleClass) (shared : List Str) (g : TGrid)
    (h : p.xlsx.Holds env toInt a.iter.sheet isNull formats shared g) (W V : VGrid)
    (hW : W = g.values env isNull formats shared) (hV : V = (W.without a.iter.skipCols).take (rowsTaken W.length t))
    (hres : V.Resolvable env o g.inline) (c : Int) (hf : W.FullColumn c) (hc : c ∉ a.iter.skipCols)
    (hlk : a.table.lookup = .none) (hfl : a.table.filters = .none) (n : Nat) (hn : 0 < n)
    (hrows : (n : Int) = rowsTaken W.length t - a.table.header.height - a.table.skipAfter) (tab : Table A)
    (hr : readFile env lib search reMatch toInt a p = .ok tab) :
    (∀ arr ∈ tab.arrays, lib.len arr = n) ∧
    (a.table.dtypes = .none → ∀ c, W.TextColumn c → ∀ j : Nat, V.columns[j]? = some c →
      tab.arrays[j]? = some (lib.ofFetched (.arr ⟨.utf8, window (V.column c)
        (a.table.header.height + a.table.skipAfter).toNat n⟩))) := by
  have hle : rowsTaken W.length t ≤ W.length := by unfold rowsTaken; split <;> omega
  have hlen : V.length = rowsTaken W.length t := by rw [hV]; simp [VGrid.without, hle]
  have hms : V.maxSpan = rowsTaken W.length t := by
    rw [← hlen]
    apply full_maxSpan (k := c)
    rw [hV]
    exact fun row hrow => without_full hf hc row (List.mem_of_mem_take hrow)
  have hr' := C69_xlsx env lib search reMatch toInt a 0 t hk ht ha p hp isNull hnull o ho formats shared g h V
    (by rw [hV, ← hW, (full_shown hf hc t a.iter.keepEmpty).1]) hres (by
      intro _ row hrow
      rw [hlk, lookupRow] at hrow
      injection hrow with hrow
      injection hrow with hrow
      rw [hms]
      omega)
  rw [hr] at hr'
  split at hr'
  · simp at hr'
  rw [hV] at hr'
  have := taken_table hf hc hle hlk hfl hr'.symm
  rw [← hrows, Int.toNat_natCast, ← hV] at this
  exact ⟨this.1 hlib, this.2⟩

/-- C119, XLSB: the same. -/
theorem C119_xlsb {A D : Type} (env : Env) (lib : Lib A D) (hlib : lib.Lawful) (search : Str → Option (Str → Bool))
    (reMatch : Str → Str → Py Bool) (toInt : Str → Option Int) (a : FileArgs D) (t : Nat)
    (hk : a.iter.skipRows = 0) (ht : a.iter.takeRows = t) (ha : a.table.Sensible) (p : Package)
    (hp : workbookXml ∉ p.names) (hp' : workbookBin ∈ p.names)
    (o : ConcatOpts) (ho : o = concatOpts a.conflict a.formats a.precision)
    (temporal : List Bytes) (shared : List Str) (g : Grid)
    (h : p.xlsb.Holds a.iter.sheet a.nulls.asks temporal shared g) (W V : VGrid)
    (hW : W = g.values temporal shared a.nulls.asks) (hV : V = (W.without a.iter.skipCols).take (rowsTaken W.length t))
    (hres : V.Resolvable env o g.inline) (c : Int) (hf : W.FullColumn c) (hc : c ∉ a.iter.skipCols)
    (hlk : a.table.lookup = .none) (hfl : a.table.filters = .none) (n : Nat) (hn : 0 < n)
    (hrows : (n : Int) = rowsTaken W.length t - a.table.header.height - a.table.skipAfter) (tab : Table A)
    (hr : readFile env lib search reMatch toInt a p = .ok tab) :
    (∀ arr ∈ tab.arrays, lib.len arr = n) ∧
    (a.table.dtypes = .none → ∀ c, W.TextColumn c → ∀ j : Nat, V.columns[j]? = some c →
      tab.arrays[j]? = some (lib.ofFetched (.arr ⟨.utf8, window (V.column c)
        (a.table.header.height + a.table.skipAfter).toNat n⟩))) := by
  have hle : rowsTaken W.length t ≤ W.length := by unfold rowsTaken; split <;> omega
  have hlen : V.length = rowsTaken W.length t := by rw [hV]; simp [VGrid.without, hle]
  have hms : V.maxSpan = rowsTaken W.length t := by
    rw [← hlen]
    apply full_maxSpan (k := c)
    rw [hV]
    exact fun row hrow => without_full hf hc row (List.mem_of_mem_take hrow)
  have hr' := C69_xlsb env lib search reMatch toInt a 0 t hk ht ha p hp hp' o ho temporal shared g h V
    (by rw [hV, ← hW, (full_shown hf hc t a.iter.keepEmpty).2]) hres (by
      intro _ row hrow
      rw [hlk, lookupRow] at hrow
      injection hrow with hrow
      injection hrow with hrow
      rw [hms]
      omega)
  rw [hr] at hr'
  split at hr'
  · simp at hr'
  rw [hV] at hr'
  have := taken_table hf hc hle hlk hfl hr'.symm
  rw [← hrows, Int.toNat_natCast, ← hV] at this
  exact ⟨this.1 hlib, this.2⟩

/-- C119, the rows promised and the rows there are: they are as many exactly if there is nothing to take or to skip
where that goes wrong.  For a header of `h > 0` rows and `take_rows` that leaves rows out: exactly if the header and the
rows skipped after it are one row together.  Without such a header: only if no row is skipped after it. -/
theorem C119_promise (n t s : Nat) :
    (∀ h : Nat, 0 < h → 0 < t → t + 1 ≤ n → h + s + t ≤ n →
      ((rowsTaken n t - h - s : Int) = rowsPromised n t (.rows h) s ↔ h + s = 1)) ∧
    (∀ h : Nat, 0 < h → t = 0 → h + s ≤ n → (rowsTaken n t - h - s : Int) = rowsPromised n t (.rows h) s) ∧
    (∀ hd : HeaderArg, hd.height = 0 → t = 0 → ((rowsTaken n t - 0 - s : Int) = rowsPromised n t hd s ↔ s = 0)) ∧
    (∀ hd : HeaderArg, hd.height = 0 → 0 < t → t + 1 ≤ n →
      ((rowsTaken n t - 0 - s : Int) = rowsPromised n t hd s ↔ s = 1)) := by
  refine ⟨fun h h1 h2 h3 h4 => ?_, fun h h1 h2 h3 => ?_, fun hd h1 h2 => ?_, fun hd h1 h2 h3 => ?_⟩
  · unfold rowsTaken rowsPromised
    simp only [Nat.cast_pos, h1, if_true, Int.toNat_natCast, Nat.pos_iff_ne_zero.mp h2, if_false]
    omega
  · subst h2
    unfold rowsTaken rowsPromised
    simp only [Nat.cast_pos, h1, if_true, Int.toNat_natCast]
    omega
  · have e : rowsPromised n t hd s = n := by
      subst h2
      unfold rowsPromised
      cases hd with
      | rows h => simp only [HeaderArg.height] at h1; subst h1; simp
      | names l => simp
    rw [e]
    subst h2
    unfold rowsTaken
    simp only [if_true]
    omega
  · have e : rowsPromised n t hd s = t := by
      unfold rowsPromised
      cases hd with
      | rows h =>
        simp only [HeaderArg.height] at h1
        subst h1
        simp [Nat.pos_iff_ne_zero.mp h2]
        omega
      | names l => simp [Nat.pos_iff_ne_zero.mp h2]; omega
    rw [e]
    unfold rowsTaken
    rw [if_neg (by omega)]
    omega

/-- A sheet of five rows with the texts `1` to `5` in column A. -/
def exFive : XSheet :=
  ⟨[], (List.range 5).map fun i => ⟨[], [⟨[(attR, 'A' :: pyStr (i + 1))], [.start tagV [], .text (pyStr (i + 1)), .close tagV]⟩]⟩, []⟩

/-- What `read` gives for it. -/
def exFiveRead (t : Int) (header : HeaderArg) (s : Int) : Py (List Fetched) :=
  let doc : XmlDoc := ⟨exFive.events, false⟩
  (readFile demoEnv exLib (fun _ => none) (fun _ _ => .ok false) exInt
      { iter := { takeRows := t }, table := { header := header, skipAfter := s } }
      ⟨[workbookXml], { exXlsxFile with parts := fun _ => some doc }, exFile⟩).map (·.arrays)

/-- Findings: `take_rows=2` gives three rows without a header and one row with a header of two rows; rows are skipped
where there is no header, or where it is given as a list; and texts that are all numbers stay texts. -/
theorem C119_finding :
    exFiveRead 2 (.rows 0) 0 = .ok [.arr ⟨.utf8, [some (.str ['1']), some (.str ['2']), some (.str ['3'])]⟩] ∧
    exFiveRead 2 (.rows 1) 0 = .ok [.arr ⟨.utf8, [some (.str ['2']), some (.str ['3'])]⟩] ∧
    exFiveRead 2 (.rows 2) 0 = .ok [.arr ⟨.utf8, [some (.str ['3'])]⟩] ∧
    exFiveRead 0 (.rows 0) 3 = .ok [.arr ⟨.utf8, [some (.str ['4']), some (.str ['5'])]⟩] ∧
    exFiveRead 0 (.names [['h']]) 3 = .ok [.arr ⟨.utf8, [some (.str ['4']), some (.str ['5'])]⟩] ∧
    rowsPromised 5 2 (.rows 0) 0 = 2 ∧ rowsPromised 5 2 (.rows 1) 0 = 2 ∧ rowsPromised 5 2 (.rows 2) 0 = 2 ∧
    rowsPromised 5 0 (.rows 0) 3 = 5 ∧ rowsPromised 5 0 (.names [['h']]) 3 = 5 := by
  decide +kernel

/-- The same sheet in XLSB, and a shared string in column B. -/
def exFiveGrid : Grid :=
  (List.range 5).map fun i => ⟨0, [0, 0, 0], .text (pyStr (i + 1)), 6, 0, []⟩ ::
    if i = 3 then [⟨1, [0, 0, 0], .shared 0, 7, 0, []⟩] else []

def exFivePart : List Record := ⟨145, []⟩ :: (exFiveGrid.records exHdrs ++ [⟨402, []⟩])

def exFiveFile : XlsbFile := { exFile with parts := fun n => if n = "xl/s1".toList then some (bytesOf exFivePart) else none }

theorem exFiveFile_holds : exFiveFile.Holds (.index 0) (fun s => s == ['-']) [[1, 0, 0]] [['x'], ['y', 'z']] exFiveGrid := by
  refine ⟨⟨[(['A'], "xl/s1".toList)], "xl/s1".toList, bytesOf exFivePart, exFivePart, exHdrs, [⟨402, []⟩], ?_⟩, ?_,
    ⟨_, [(0, ['x'], []), (0, ['y', 'z'], [])], rfl, ?_⟩, ?_, ?_⟩
  · refine ⟨by decide +kernel, by decide +kernel, by decide +kernel, by decide +kernel, by decide +kernel,
      .inr ⟨_, _, rfl, rfl⟩, by decide +kernel⟩
  · exact ⟨_, rfl, by decide +kernel⟩
  · exact ⟨by decide +kernel, by decide, by decide +kernel, rfl⟩
  · decide +kernel
  · decide +kernel

/-- The premises of `C119_xlsb` hold for this file, and `take_rows=3` with a header of two rows gives two rows. -/
example :
    (∀ row ∈ exFiveGrid.values [[1, 0, 0]] [['x'], ['y', 'z']] (fun s => s == ['-']), ∃ p ∈ row, p.1 = 0) ∧
    (readFile demoEnv exLib (fun _ => none) (fun _ _ => .ok false) exInt
      { iter := { takeRows := 3 }, table := { header := .rows 2 }, nulls := .pred fun s => s == ['-'] }
      ⟨[workbookBin], exXlsxFile, exFiveFile⟩).map (·.arrays) =
    .ok [.arr ⟨.utf8, [some (.str ['3']), some (.str ['4'])]⟩, .arr ⟨.utf8, [none, some (.str ['x'])]⟩] := by
  decide +kernel

end Rxls
