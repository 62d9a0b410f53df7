import Verif.Spec.RowFilter
import Verif.Props.Parts

/-! # Property C128: row_filters takes rows out and changes nothing else -/

namespace Rxls

/-- The value of a row in a column. -/
def rowAt (k : Int) (row : List (Int × Val)) : Option Val := (row.find? fun p => p.1 = k).map (·.2)

theorem rowAt_isSome (k : Int) (row : List (Int × Val)) : (rowAt k row).isSome = row.any fun p => p.1 = k := by
  unfold rowAt
  rw [Option.isSome_map, Bool.eq_iff_iff, List.find?_isSome, List.any_eq_true]

theorem range_getD {α : Type} (l : List α) (d : α) : (List.range l.length).map (fun i => l.getD i d) = l := by
  apply List.ext_getElem?
  intro i
  rw [List.getElem?_map]
  by_cases h : i < l.length
  · rw [List.getElem?_range h]
    simp [h]
  · rw [List.getElem?_eq_none (by simpa using h), List.getElem?_eq_none (by simpa using h)]
    rfl

theorem cell_row (g : VGrid) (k : Int) (off i : Nat) (h : off + i < g.length) :
    cellAt (g.column k) (off + i) = rowAt k ((g.drop off).getD i []) := by
  rw [column_cell _ _ _ h]
  unfold VGrid.at rowAt
  rw [List.getD_eq_getElem?_getD, List.getD_eq_getElem?_getD, List.getElem?_drop]

theorem column_rows (g : VGrid) (k : Int) (off : Nat) : window (g.column k) off (g.length - off) =
    (g.drop off).map (rowAt k) := by
  conv_rhs => rw [← range_getD (g.drop off) [], List.map_map, List.length_drop]
  unfold window
  refine List.map_congr_left fun i hi => ?_
  rw [List.mem_range] at hi
  exact cell_row g k off i (by omega)

theorem masked_rows (g : VGrid) (k : Int) (off : Nat) (P : List (Int × Val) → Bool) :
    maskedRows (g.column k) off ((g.drop off).map P) = ((g.drop off).filter P).map (rowAt k) := by
  conv_rhs => rw [← range_getD (g.drop off) [], List.filter_map, List.map_map]
  unfold maskedRows
  rw [List.length_map]
  have e : (List.range (g.drop off).length).filter (fun i => decide (((g.drop off).map P)[i]? = some true)) =
      (List.range (g.drop off).length).filter (P ∘ fun i => (g.drop off).getD i []) := by
    apply List.filter_congr
    intro i hi
    rw [List.mem_range] at hi
    rw [List.getElem?_map, Function.comp_apply, List.getD_eq_getElem?_getD, List.getElem?_eq_getElem hi]
    simp
  rw [e]
  refine List.map_congr_left fun i hi => ?_
  have := List.mem_range.mp (List.mem_filter.mp hi).1
  rw [List.length_drop] at this
  exact cell_row g k off i (by omega)

/-- What is there of a column, whatever becomes of its values. -/
theorem present_cells (env : Env) (o : ConcatOpts) (cells : List (Option Val)) (h1 : some (.f8 .nan) ∉ cells)
    (h2 : ∀ s, some (.str s) ∈ cells → env.parseF8 s ≠ some .nan) : presentRows env o cells = cells.map Option.isSome := by
  have key : ∀ (T : DType) (v : Val), v ≠ .f8 .nan → present (some (rendered env T v)) = true := by
    intro T v hv
    have : rendered env T v ≠ .f8 .nan := by
      cases T <;> cases v <;> simp_all [rendered]
    unfold present
    split <;> simp_all
  have main : ∀ (f : Val → Val), (∀ v, some v ∈ cells → f v ≠ .f8 .nan) → ∀ T : DType,
      ((cells.map (Option.map f)).map (Option.map (rendered env T))).map present = cells.map Option.isSome := by
    intro f hf T
    rw [List.map_map, List.map_map]
    refine List.map_congr_left fun v hv => ?_
    cases v with
    | none => rfl
    | some v => exact key T _ (hf v hv)
  have hid : ∀ v, some v ∈ cells → id v ≠ .f8 .nan := fun v hv e => h1 (e ▸ hv)
  unfold presentRows fetched materialise
  dsimp only
  generalize columnType o.prec (resolved env o cells) = T
  unfold resolved
  split
  · split
    · refine main (asMoment env o cells) ?_ T
      intro v _
      cases v with
      | str s =>
        simp only [asMoment]
        repeat' split
        all_goals exact fun e => by cases e
      | _ => exact fun e => by cases e
    · simpa using main id hid T
  · split
    · refine main (asNumber env) ?_ T
      intro v hv
      cases v with
      | str s =>
        have := h2 s hv
        intro e
        simp only [asNumber, Val.f8.injEq] at e
        cases hp : env.parseF8 s with
        | none => rw [hp] at e; cases e
        | some x =>
          rw [hp] at e this
          exact this (congrArg some e)
      | _ => exact hid _ hv
    · simpa using main id hid T

theorem nonan_cells {env : Env} {g : VGrid} {k : Int} (h : g.NoNaN env k) (off : Nat) :
    some (.f8 .nan) ∉ (g.drop off).map (rowAt k) ∧
      ∀ s, some (.str s) ∈ (g.drop off).map (rowAt k) → env.parseF8 s ≠ some .nan := by
  have key : ∀ v, some v ∈ (g.drop off).map (rowAt k) → ∃ row ∈ g, ∃ p ∈ row, p.1 = k ∧ p.2 = v := by
    intro v hv
    obtain ⟨row, hrow, e⟩ := List.mem_map.mp hv
    obtain ⟨p, hp, rfl⟩ := Option.map_eq_some_iff.mp e
    exact ⟨row, List.mem_of_mem_drop hrow, p, List.mem_of_find?_eq_some hp, by simpa using List.find?_some hp, rfl⟩
  constructor
  · intro hm
    obtain ⟨row, hrow, p, hp, e1, e2⟩ := key _ hm
    exact (h row hrow p hp e1).1 e2
  · intro s hm
    obtain ⟨row, hrow, p, hp, e1, e2⟩ := key _ hm
    exact (h row hrow p hp e1).2 s e2

/-- The mask of the rows kept. -/
theorem mask_kept (env : Env) (o : ConcatOpts) (g : VGrid) (off : Nat) (fs : List Int) (hfs : fs ≠ []) {st : Strategy}
    (hfit : st.Fits fs.length) (hnan : ∀ k ∈ fs, g.NoNaN env k) :
    combineFilters st (fs.map fun k => presentRows env o (window (g.column k) off (g.length - off))) =
      .ok ((g.drop off).map (rowKept st fs)) := by
  have e : (fs.map fun k => presentRows env o (window (g.column k) off (g.length - off))) =
      fs.map fun k => (g.drop off).map fun row => row.any fun p => p.1 = k := by
    refine List.map_congr_left fun k hk => ?_
    obtain ⟨h1, h2⟩ := nonan_cells (hnan k hk) off
    rw [column_rows, present_cells env o _ h1 h2, List.map_map]
    exact List.map_congr_left fun row _ => rowAt_isSome k row
  rw [e]
  have hl : ∀ b ∈ fs.map fun k => (g.drop off).map fun row => row.any fun p => decide (p.1 = k), b.length = (g.drop off).length := by
    intro b hb
    obtain ⟨k, _, rfl⟩ := List.mem_map.mp hb
    simp
  have fin : ∀ m : List Bool, m.length = (g.drop off).length →
      (∀ i < (g.drop off).length, m.getD i false = rowKept st fs ((g.drop off).getD i [])) →
      m = (g.drop off).map (rowKept st fs) := by
    intro m h1 h2
    apply List.ext_getElem
    · simp [h1]
    · intro i hi hi'
      have hi2 : i < (g.drop off).length := by simpa using hi'
      have := h2 i hi2
      rw [List.getD_eq_getElem?_getD, List.getElem?_eq_getElem hi, List.getD_eq_getElem?_getD, List.getElem?_eq_getElem hi2] at this
      simpa using this
  have cell : ∀ i < (g.drop off).length, ∀ k : Int,
      ((g.drop off).map fun row => row.any fun p => decide (p.1 = k)).getD i false =
        ((g.drop off).getD i []).any fun p => decide (p.1 = k) := by
    intro i hi k
    rw [List.getD_eq_getElem?_getD, List.getD_eq_getElem?_getD, List.getElem?_map, List.getElem?_eq_getElem hi]
    rfl
  cases st with
  | and =>
    obtain ⟨m, e1, e2, e3⟩ := C56_and (g.drop off).length _ (by simpa using hfs) hl
    rw [e1, fin m e2]
    intro i hi
    rw [e3 i hi, List.all_map]
    simp only [rowKept, Function.comp_def, cell i hi]
  | or =>
    obtain ⟨m, e1, e2, e3⟩ := C56_or (g.drop off).length _ (by simpa using hfs) hl
    rw [e1, fin m e2]
    intro i hi
    rw [e3 i hi, List.any_map]
    simp only [rowKept, Function.comp_def, cell i hi]
  | ops l =>
    obtain ⟨hf1, hf2⟩ := hfit
    match fs, hfs, l, hf1, hf2, hl, fin with
    | [k], _, [], _, _, hl, fin =>
      have := fin ((g.drop off).map fun row => row.any fun p => decide (p.1 = k)) (by simp) (by
        intro i hi
        rw [cell i hi]
        rfl)
      rw [← this]
      rfl
    | _ :: _ :: _, _, [], hf1, _, _, _ => simp at hf1
    | k :: ks, _, op :: l, hf1, hf2, hl, fin =>
      have hlk : (op :: l).length = ks.length := by simpa using hf1
      let col : Int → List Bool := fun k => (g.drop off).map fun row => row.any fun p => decide (p.1 = k)
      obtain ⟨m, e1, e2, e3⟩ := C56_operators (g.drop off).length (col k) ((op :: l).zip (ks.map col))
        (by
          cases ks with
          | nil => cases hlk
          | cons x xs => simp)
        (hl _ (by simp [col]))
        (by
          intro p hp
          have := (List.of_mem_zip hp).2
          obtain ⟨x, _, e⟩ := List.mem_map.mp this
          rw [← e]
          simp [col])
        (by
          intro p hp e
          exact hf2 (e ▸ (List.of_mem_zip hp).1))
      rw [List.map_fst_zip (by simp [← hlk]), List.map_snd_zip (by simp [← hlk])] at e1
      rw [List.map_cons]
      refine e1.trans ?_
      rw [fin m e2]
      intro i hi
      rw [e3 i hi]
      simp only [rowKept, col, cell i hi]
      rw [List.zip_map_right, List.foldl_map]
      simp only [Prod.map, id, cell i hi]
  | bad => exact hfit.elim

theorem filtered_full {g : VGrid} {c : Int} (h : g.FullColumn c) (top : Nat) (st : Strategy) (fs : List Int) :
    (g.filtered top st fs).FullColumn c := by
  intro row hr
  unfold VGrid.filtered VGrid.kept at hr
  rcases List.mem_append.mp hr with hr | hr
  · exact h row (List.mem_of_mem_take hr)
  · exact h row (List.mem_of_mem_drop (List.mem_filter.mp hr).1)

theorem filtered_drop {g : VGrid} {top : Nat} (h : top ≤ g.length) (st : Strategy) (fs : List Int) :
    (g.filtered top st fs).drop top = g.kept top st fs := by
  unfold VGrid.filtered
  rw [List.drop_append, List.length_take, Nat.min_eq_left h, Nat.sub_self, List.drop_zero, List.drop_of_length_le
    (by rw [List.length_take]; omega), List.nil_append]

theorem filtered_length {g : VGrid} {top : Nat} (h : top ≤ g.length) (st : Strategy) (fs : List Int) :
    (g.filtered top st fs).length = top + (g.kept top st fs).length := by
  unfold VGrid.filtered
  rw [List.length_append, List.length_take, Nat.min_eq_left h]

theorem filtered_names (env : Env) (o : ConcatOpts) {g : VGrid} {top : Nat} (h : top ≤ g.length) (st : Strategy) (fs : List Int)
    (hcols : (g.filtered top st fs).columns = g.columns) (hd : HeaderArg) (h0 : 0 ≤ hd.height) (hh : hd.height ≤ top) :
    namesFor env o (g.filtered top st fs).column (g.filtered top st fs).columns 0 hd =
      namesFor env o g.column g.columns 0 hd := by
  rw [hcols]
  cases hd with
  | names l => rfl
  | rows n =>
    simp only [HeaderArg.height] at h0 hh
    unfold namesFor
    dsimp only
    have : ∀ k, window ((g.filtered top st fs).column k) 0 n.toNat = window (g.column k) 0 n.toNat := by
      intro k
      unfold window
      refine List.map_congr_left fun i hi => ?_
      rw [List.mem_range] at hi
      rw [column_cell _ _ _ (by rw [filtered_length h]; omega), column_cell _ _ _ (by omega)]
      unfold VGrid.at
      rw [List.getD_eq_getElem?_getD, List.getD_eq_getElem?_getD]
      unfold VGrid.filtered
      rw [List.getElem?_append_left (by rw [List.length_take]; omega), List.getElem?_take_of_lt (by omega)]
    simp only [this]

/-- **C128** for the values of sheets: with row filters, a sheet with a full column is read as the sheet without the rows
that are empty in the columns of the filters, for all strategies that fit, whatever the other arguments (but without a lookup); if no row is left, it
is refused. -/
theorem C128_table {A D : Type} (env : Env) (lib : Lib A D) (search : Str → Option (Str → Bool))
    (reMatch : Str → Str → Py Bool) (args : ReadArgs D) (hlk : args.lookup = .none) (st : Strategy)
    (hst : args.strategy = st) (o : ConcatOpts) (g : VGrid) (c : Int) (hf : g.FullColumn c)
    (hh : 0 ≤ args.header.height) (hs : 0 ≤ args.skipAfter) (top : Nat)
    (htop : (top : Int) = args.header.height + args.skipAfter) (hle : top ≤ g.length) (names : List Str)
    (hnm : namesFor env o g.column g.columns 0 args.header = .ok names) (fs : List Int)
    (hfk : filterKeys reMatch names g.columns args.filters = .ok fs) (hfs : fs ≠ []) (hfit : st.Fits fs.length) (hnan : ∀ k ∈ fs, g.NoNaN env k)
    (hcols : (g.filtered top st fs).columns = g.columns) :
    g.table env lib search reMatch args o =
      if g.kept top st fs = [] then .error .valueError
      else (g.filtered top st fs).table env lib search reMatch { args with filters := .none } o := by
  have hms := full_maxSpan hf
  have hms' := full_maxSpan (filtered_full hf top st fs)
  have hoff : (args.header.height + args.skipAfter).toNat = top := by omega
  have hlen : ((g.length : Int) - args.header.height - args.skipAfter).toNat = g.length - top := by omega
  have hlen' : (((g.filtered top st fs).length : Int) - args.header.height - args.skipAfter).toNat =
      (g.filtered top st fs).length - top := by omega
  have hmask := mask_kept env o g top fs hfs hfit hnan
  have hemp : fs.isEmpty = false := by cases fs <;> simp_all
  have hnm' := filtered_names env o hle st fs hcols args.header hh (by omega)
  rw [hnm, hcols] at hnm'
  have hf0 : ∀ l k, filterKeys reMatch l k .none = .ok [] := fun _ _ => rfl
  unfold VGrid.table sheetTable
  simp only [hlk, lookupRow, hnm, hfk, hnm', hf0, maskFor,
    List.isEmpty_nil, if_true, hms, hms', Nat.cast_zero, add_zero, sub_zero, hoff, hlen, hlen', hemp, Bool.false_eq_true, if_false, hst,
    hmask, hcols]
  have ht : trueCount ((g.drop top).map (rowKept st fs)) = (g.kept top st fs).length := by
    unfold trueCount VGrid.kept
    rw [List.filter_map, List.length_map]
    rfl
  rw [ht]
  by_cases hk : g.kept top st fs = []
  · simp [hk]
  · have : (g.kept top st fs).length ≠ 0 := by simpa using hk
    simp only [this, hk, if_false]
    unfold tableOf pickRows
    simp only [masked_rows, column_rows, filtered_drop hle]
    rfl

theorem filtered_without (g : VGrid) (top : Nat) (st : Strategy) (fs cols : List Int) (h : ∀ k ∈ fs, k ∉ cols) :
    (g.filtered top st fs).without cols = VGrid.filtered top st fs (g.without cols) := by
  have key : ∀ row : List (Int × Val), rowKept st fs (row.filter fun p => decide (p.1 ∉ cols)) = rowKept st fs row := by
    intro row
    have : ∀ k ∈ fs, (row.filter fun p => decide (p.1 ∉ cols)).any (fun p => decide (p.1 = k)) =
        row.any fun p => decide (p.1 = k) := by
      intro k hk
      rw [Bool.eq_iff_iff, List.any_eq_true, List.any_eq_true]
      constructor
      · rintro ⟨p, hp, e⟩
        exact ⟨p, (List.mem_filter.mp hp).1, e⟩
      · rintro ⟨p, hp, e⟩
        have e' : p.1 = k := by simpa using e
        exact ⟨p, List.mem_filter.mpr ⟨hp, by rw [e']; simpa using h k hk⟩, e⟩
    unfold rowKept
    cases st with
    | and =>
      rw [Bool.eq_iff_iff]
      simp only [List.all_eq_true]
      exact forall₂_congr fun k hk => by rw [this k hk]
    | or =>
      rw [Bool.eq_iff_iff]
      simp only [List.any_eq_true (l := fs)]
      exact exists_congr fun k => and_congr_right fun hk => by rw [this k hk]
    | ops l =>
      cases fs with
      | nil => rfl
      | cons k ks =>
        simp only
        rw [this k (by simp)]
        have step : ∀ (z : List (RowOp × Int)) (b : Bool), (∀ p ∈ z, p.2 ∈ k :: ks) →
            z.foldl (fun b p => if p.1 = .and then b && (row.filter fun p => decide (p.1 ∉ cols)).any (fun q => decide (q.1 = p.2))
              else b || (row.filter fun p => decide (p.1 ∉ cols)).any fun q => decide (q.1 = p.2)) b =
            z.foldl (fun b p => if p.1 = .and then b && row.any (fun q => decide (q.1 = p.2))
              else b || row.any fun q => decide (q.1 = p.2)) b := by
          intro z
          induction z with
          | nil => intros; rfl
          | cons p z ih =>
            intro b hz
            rw [List.foldl_cons, List.foldl_cons, this p.2 (hz p (by simp))]
            exact ih _ fun q hq => hz q (by simp [hq])
        exact step _ _ fun p hp => List.mem_cons_of_mem _ (List.of_mem_zip hp).2
    | bad => rfl
  unfold VGrid.filtered VGrid.kept VGrid.without
  rw [List.map_append, List.map_take, ← List.map_drop, List.filter_map]
  congr 2
  exact List.filter_congr fun row _ => (key row).symm

/-- **C128**, XLSX.  With row filters, a file is read as the file without the rows that are empty in the columns of the
filters is read without filters; if no such row is left, it is refused. -/
theorem C128_xlsx {A D : Type} (env : Env) (lib : Lib A D) (search : Str → Option (Str → Bool))
    (reMatch : Str → Str → Py Bool) (toInt : Str → Option Int) (a : FileArgs D)
    (hk : a.iter.skipRows = 0) (ht : a.iter.takeRows = 0) (ha : a.table.Sensible) (hlk : a.table.lookup = .none)
    (st : Strategy) (hst : a.table.strategy = st) (p p' : Package)
    (hp : workbookXml ∈ p.names) (hp' : workbookXml ∈ p'.names) (isNull : Str → Bool)
    (hnull : ∀ s, isNull s = (decide (s ∈ errorTexts) || a.nulls.asks s)) (o : ConcatOpts)
    (ho : o = concatOpts a.conflict a.formats a.precision)
    (formats formats' : List StyleClass) (shared shared' : List Str) (g g' : TGrid)
    (h : p.xlsx.Holds env toInt a.iter.sheet isNull formats shared g)
    (h' : p'.xlsx.Holds env toInt a.iter.sheet isNull formats' shared' g') (W W' V : VGrid)
    (hW : W = g.values env isNull formats shared) (hW' : W' = g'.values env isNull formats' shared')
    (hV : V = W.without a.iter.skipCols) (c : Int) (hf : W.FullColumn c) (hc : c ∉ a.iter.skipCols)
    (hres : V.Resolvable env o g.inline) (hres' : (W'.without a.iter.skipCols).Resolvable env o g'.inline)
    (hs : 0 ≤ a.table.skipAfter) (top : Nat) (htop : (top : Int) = a.table.header.height + a.table.skipAfter)
    (hle : top < V.length) (names : List Str) (hnm : namesFor env o V.column V.columns 0 a.table.header = .ok names)
    (fs : List Int) (hfk : filterKeys reMatch names V.columns a.table.filters = .ok fs) (hfs : fs ≠ []) (hfit : st.Fits fs.length)
    (hnan : ∀ k ∈ fs, V.NoNaN env k) (hcols : (V.filtered top st fs).columns = V.columns)
    (hfc : ∀ k ∈ fs, k ∉ a.iter.skipCols) (hrows : W' = W.filtered top st fs) :
    readFile env lib search reMatch toInt a p =
      if V.kept top st fs = [] then .error .valueError
      else readFile env lib search reMatch toInt { a with table.filters := .none } p' := by
  have hVf : V.FullColumn c := by rw [hV]; exact without_full hf hc
  have hf' : W'.FullColumn c := by rw [hrows]; exact filtered_full hf top st fs
  have hV' : W'.without a.iter.skipCols = V.filtered top st fs := by rw [hrows, hV, filtered_without _ _ _ _ _ hfc]
  have hne : ∀ {U : VGrid}, U.FullColumn c → 0 < U.length → U.flatten ≠ [] := by
    intro U hU hl e
    obtain ⟨row, hrow⟩ := List.exists_mem_of_length_pos hl
    obtain ⟨q, hq, _⟩ := hU row hrow
    have : q ∈ U.flatten := List.mem_flatten.mpr ⟨row, hrow, hq⟩
    rw [e] at this
    cases this
  have e := C69_xlsx env lib search reMatch toInt a 0 0 hk ht ha p hp isNull hnull o ho formats shared g h V
    (by
      rw [← hW, (full_shown hf hc 0 a.iter.keepEmpty).1, ← hV, rowsTaken, if_pos rfl, List.take_of_length_le]
      rw [hV]
      simp [VGrid.without])
    hres (by
      intro _ row hrow
      simp only [hlk, lookupRow, Except.ok.injEq, Option.some.injEq] at hrow
      subst hrow
      rw [full_maxSpan hVf]
      simp only [Nat.cast_zero]
      omega)
  rw [e, if_neg (hne hVf (by omega)), C128_table env lib search reMatch a.table hlk st hst o V c hVf ha.header hs top htop
    (by omega) names hnm fs hfk hfs hfit hnan hcols]
  by_cases hkept : V.kept top st fs = []
  · rw [if_pos hkept, if_pos hkept]
  rw [if_neg hkept, if_neg hkept]
  have hlen : top < (V.filtered top st fs).length := by
    rw [filtered_length (by omega)]
    have := List.length_pos_iff.mpr hkept
    omega
  have e' := C69_xlsx env lib search reMatch toInt { a with table.filters := .none } 0 0 hk ht ⟨ha.lookup, ha.header⟩ p' hp'
    isNull hnull o ho formats' shared' g' h' (V.filtered top st fs)
    (by
      rw [← hW', (full_shown hf' hc 0 a.iter.keepEmpty).1, hV', rowsTaken, if_pos rfl, List.take_of_length_le]
      rw [← hV']
      simp [VGrid.without])
    (hV' ▸ hres') (by
      intro _ row hrow
      simp only [hlk, lookupRow, Except.ok.injEq, Option.some.injEq] at hrow
      subst hrow
      rw [full_maxSpan (filtered_full hVf top st fs)]
      simp only [Nat.cast_zero]
      omega)
  rw [e', if_neg (hne (filtered_full hVf top st fs) (by omega))]

/-- **C128**, XLSB: the same. -/
theorem C128_xlsb {A D : Type} (env : Env) (lib : Lib A D) (search : Str → Option (Str → Bool))
    (reMatch : Str → Str → Py Bool) (toInt : Str → Option Int) (a : FileArgs D)
    (hk : a.iter.skipRows = 0) (ht : a.iter.takeRows = 0) (ha : a.table.Sensible) (hlk : a.table.lookup = .none)
    (st : Strategy) (hst : a.table.strategy = st) (p p' : Package)
    (hp : workbookXml ∉ p.names) (hp' : workbookXml ∉ p'.names) (hb : workbookBin ∈ p.names) (hb' : workbookBin ∈ p'.names)
    (o : ConcatOpts) (ho : o = concatOpts a.conflict a.formats a.precision)
    (temporal temporal' : List Bytes) (shared shared' : List Str) (g g' : Grid)
    (h : p.xlsb.Holds a.iter.sheet a.nulls.asks temporal shared g)
    (h' : p'.xlsb.Holds a.iter.sheet a.nulls.asks temporal' shared' g') (W W' V : VGrid)
    (hW : W = g.values temporal shared a.nulls.asks) (hW' : W' = g'.values temporal' shared' a.nulls.asks)
    (hV : V = W.without a.iter.skipCols) (c : Int) (hf : W.FullColumn c) (hc : c ∉ a.iter.skipCols)
    (hres : V.Resolvable env o g.inline) (hres' : (W'.without a.iter.skipCols).Resolvable env o g'.inline)
    (hs : 0 ≤ a.table.skipAfter) (top : Nat) (htop : (top : Int) = a.table.header.height + a.table.skipAfter)
    (hle : top < V.length) (names : List Str) (hnm : namesFor env o V.column V.columns 0 a.table.header = .ok names)
    (fs : List Int) (hfk : filterKeys reMatch names V.columns a.table.filters = .ok fs) (hfs : fs ≠ []) (hfit : st.Fits fs.length)
    (hnan : ∀ k ∈ fs, V.NoNaN env k) (hcols : (V.filtered top st fs).columns = V.columns)
    (hfc : ∀ k ∈ fs, k ∉ a.iter.skipCols) (hrows : W' = W.filtered top st fs) :
    readFile env lib search reMatch toInt a p =
      if V.kept top st fs = [] then .error .valueError
      else readFile env lib search reMatch toInt { a with table.filters := .none } p' := by
  have hVf : V.FullColumn c := by rw [hV]; exact without_full hf hc
  have hf' : W'.FullColumn c := by rw [hrows]; exact filtered_full hf top st fs
  have hV' : W'.without a.iter.skipCols = V.filtered top st fs := by rw [hrows, hV, filtered_without _ _ _ _ _ hfc]
  have hne : ∀ {U : VGrid}, U.FullColumn c → 0 < U.length → U.flatten ≠ [] := by
    intro U hU hl e
    obtain ⟨row, hrow⟩ := List.exists_mem_of_length_pos hl
    obtain ⟨q, hq, _⟩ := hU row hrow
    have : q ∈ U.flatten := List.mem_flatten.mpr ⟨row, hrow, hq⟩
    rw [e] at this
    cases this
  have e := C69_xlsb env lib search reMatch toInt a 0 0 hk ht ha p hp hb o ho temporal shared g h V
    (by
      rw [← hW, (full_shown hf hc 0 a.iter.keepEmpty).2, ← hV, rowsTaken, if_pos rfl, List.take_of_length_le]
      rw [hV]
      simp [VGrid.without])
    hres (by
      intro _ row hrow
      simp only [hlk, lookupRow, Except.ok.injEq, Option.some.injEq] at hrow
      subst hrow
      rw [full_maxSpan hVf]
      simp only [Nat.cast_zero]
      omega)
  rw [e, if_neg (hne hVf (by omega)), C128_table env lib search reMatch a.table hlk st hst o V c hVf ha.header hs top htop
    (by omega) names hnm fs hfk hfs hfit hnan hcols]
  by_cases hkept : V.kept top st fs = []
  · rw [if_pos hkept, if_pos hkept]
  rw [if_neg hkept, if_neg hkept]
  have hlen : top < (V.filtered top st fs).length := by
    rw [filtered_length (by omega)]
    have := List.length_pos_iff.mpr hkept
    omega
  have e' := C69_xlsb env lib search reMatch toInt { a with table.filters := .none } 0 0 hk ht ⟨ha.lookup, ha.header⟩ p' hp'
    hb' o ho temporal' shared' g' h' (V.filtered top st fs)
    (by
      rw [← hW', (full_shown hf' hc 0 a.iter.keepEmpty).2, hV', rowsTaken, if_pos rfl, List.take_of_length_le]
      rw [← hV']
      simp [VGrid.without])
    (hV' ▸ hres') (by
      intro _ row hrow
      simp only [hlk, lookupRow, Except.ok.injEq, Option.some.injEq] at hrow
      subst hrow
      rw [full_maxSpan (filtered_full hVf top st fs)]
      simp only [Nat.cast_zero]
      omega)
  rw [e', if_neg (hne (filtered_full hVf top st fs) (by omega))]

/-! ## Examples -/

/-- Numbers, a total without a name, and a row in which only column A has a value, a text. -/
def exKept : VGrid :=
  [[(0, .str ['n']), (1, .str ['m'])], [(0, .f8 (.fin 1)), (1, .str ['a'])], [(0, .str ['s', 'u', 'm'])],
    [(0, .f8 (.fin 2)), (1, .str ['b'])]]

def exKeptRead (g : VGrid) (args : ReadArgs DType) : Py (List Fetched) :=
  (g.table textEnv exLib (fun _ => none) (fun _ _ => .ok false) args ⟨false, false, [], 6⟩).map (·.arrays)

/-- The row that the filter takes out counts no more for the type of column A; without the filter it is a text. -/
example : exKeptRead exKept { header := .rows 1, filters := .positions [1] } =
      .ok [.arr ⟨.i8, [some (.i8 1), some (.i8 2)]⟩, .arr ⟨.utf8, [some (.str ['a']), some (.str ['b'])]⟩] ∧
    exKeptRead (exKept.filtered 1 .or [1]) { header := .rows 1 } =
      .ok [.arr ⟨.i8, [some (.i8 1), some (.i8 2)]⟩, .arr ⟨.utf8, [some (.str ['a']), some (.str ['b'])]⟩] ∧
    (exKept.filtered 1 .or [1]).length = 3 ∧
    exKeptRead exKept { header := .rows 1 } =
      .ok [.arr ⟨.utf8, [some (.str ['1']), some (.str ['s', 'u', 'm']), some (.str ['2'])]⟩,
        .arr ⟨.utf8, [some (.str ['a']), none, some (.str ['b'])]⟩] := by decide +kernel

/-- The conditions of `C128_table` hold there. -/
example : exKept.FullColumn 0 ∧ (exKept.filtered 1 .or [1]).columns = exKept.columns ∧ exKept.NoNaN textEnv 1 ∧
    filterKeys (fun _ _ => .ok false) [['n'], ['m']] exKept.columns (.positions [1]) = .ok [1] := by
  refine ⟨?_, by decide +kernel, ?_, by decide +kernel⟩
  · unfold VGrid.FullColumn exKept
    decide +kernel
  · intro row hrow p hp hk
    simp only [exKept, List.mem_cons, List.not_mem_nil, or_false] at hrow
    rcases hrow with rfl | rfl | rfl | rfl <;> simp only [List.mem_cons, List.not_mem_nil, or_false] at hp
    · rcases hp with rfl | rfl
      · cases hk
      · exact ⟨by decide, fun s hs => by cases hs; decide +kernel⟩
    · rcases hp with rfl | rfl
      · cases hk
      · exact ⟨by decide, fun s hs => by cases hs; decide +kernel⟩
    · subst hp
      cases hk
    · rcases hp with rfl | rfl
      · cases hk
      · exact ⟨by decide, fun s hs => by cases hs; decide +kernel⟩

/-- An XLSB file with five rows of texts of which one has a text in column B (C119), and the file with this row alone. -/
example : exFiveFile.Holds (.index 0) (fun s => s == ['-']) [[1, 0, 0]] [['x'], ['y', 'z']] exFiveGrid ∧
    ((exFiveGrid.values [[1, 0, 0]] [['x'], ['y', 'z']] (fun s => s == ['-'])).filtered 0 .or [1] : VGrid) =
      [[(0, .str ['4']), (1, .str ['x'])]] ∧
    (readFile demoEnv exLib (fun _ => none) (fun _ _ => .ok false) exInt
      { table := { filters := .positions [1] }, nulls := .pred fun s => s == ['-'] }
      ⟨[workbookBin], exXlsxFile, exFiveFile⟩).map (·.arrays) =
    .ok [.arr ⟨.utf8, [some (.str ['4'])]⟩, .arr ⟨.utf8, [some (.str ['x'])]⟩] := by
  refine ⟨exFiveFile_holds, by decide +kernel, by decide +kernel⟩

/-- No row left: refused. -/
example : (exKept.take 1 ++ [[(0, .str ['x'])]] : VGrid).kept 1 .or [1] = [] ∧
    exKeptRead (exKept.take 1 ++ [[(0, .str ['x'])]]) { header := .rows 1, filters := .positions [1] } = .error .valueError := by
  decide +kernel

/-- Three columns and the operators "or", "and": (A or B) and C. -/
example :
    let g : VGrid := [[(0, .str ['a']), (1, .str ['b']), (2, .str ['c'])], [(0, .str ['d']), (2, .str ['e'])],
      [(0, .str ['f']), (1, .str ['g'])], [(2, .str ['h']), (3, .str ['i'])]]
    g.kept 0 (.ops [.or, .and]) [0, 1, 2] = g.take 2 ∧
      exKeptRead g { header := .rows 0, filters := .positions [0, 1, 2], strategy := .ops [.or, .and] } =
        .ok [.arr ⟨.utf8, [some (.str ['a']), some (.str ['d'])]⟩, .arr ⟨.utf8, [some (.str ['b']), none]⟩,
          .arr ⟨.utf8, [some (.str ['c']), some (.str ['e'])]⟩, .arr ⟨.utf8, [none, none]⟩] := by decide +kernel

end Rxls
