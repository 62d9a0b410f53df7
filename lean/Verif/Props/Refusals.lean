import Verif.Props.FullRead
import Verif.Props.Shown

/-! # Property C100: which exceptions `read` raises, and when -/

namespace Rxls

/-- The patterns of `row_filters`. -/
def filterPatterns : RowFilters → List Str
  | .pattern p => [p]
  | .patterns l => l
  | _ => []

/-- The reasons to refuse a readable workbook, by the exception: `ValueError` may always be raised; the others only for
a number in `lookup_head` that is no column, a pattern there that Arrow refuses, a pattern of `row_filters` that Python
refuses, a `row_filters_strategy` of a wrong type, and shared strings beside moments under temporal resolution. -/
inductive Refusal {D : Type} (search : Str → Option (Str → Bool)) (reMatch : Str → Str → Py Bool) (args : ReadArgs D)
    (columns : List Int) (clash : Prop) : PyErr → Prop
  | value : Refusal search reMatch args columns clash .valueError
  | noColumn (k : Int) (hl : args.lookup = .column k) (hk : k ∉ columns) : Refusal search reMatch args columns clash .keyError
  | badSearch (p : Str) (hl : args.lookup = .pattern p) (hp : search p = none) :
    Refusal search reMatch args columns clash .arrowInvalid
  | badFilter (p s : Str) (hp : p ∈ filterPatterns args.filters) (e : PyErr) (he : reMatch p s = .error e) :
    Refusal search reMatch args columns clash e
  | badStrategy (hs : args.strategy = .bad) : Refusal search reMatch args columns clash .typeError
  | datesAndShared (hc : clash) : Refusal search reMatch args columns clash .arrowNotImplemented

section
variable {A D : Type} {env : Env} {lib : Lib A D} {search : Str → Option (Str → Bool)}
  {reMatch : Str → Str → Py Bool} {args : ReadArgs D} {clash : Prop}

theorem keysWhere_error {test : Str → Py Bool} : ∀ {l : List (Str × Int)} {e : PyErr}, keysWhere test l = .error e →
    ∃ s, test s = .error e
  | [], e, h => by simp [keysWhere] at h
  | (name, k) :: rest, e, h => by
    rw [keysWhere] at h
    cases ht : test name with
    | error e' => rw [ht] at h; injection h with h; subst h; exact ⟨name, ht⟩
    | ok b =>
      rw [ht] at h
      simp only at h
      cases hr : keysWhere test rest with
      | error e' => rw [hr] at h; injection h with h; subst h; exact keysWhere_error hr
      | ok ks => rw [hr] at h; cases h

theorem anyMatch_error : ∀ {l : List Str} {s : Str} {e : PyErr}, anyMatch reMatch l s = .error e →
    ∃ p ∈ l, reMatch p s = .error e
  | [], s, e, h => by simp [anyMatch] at h
  | p :: ps, s, e, h => by
    rw [anyMatch] at h
    cases hr : reMatch p s with
    | error e' => rw [hr] at h; injection h with h; subst h; exact ⟨p, by simp, hr⟩
    | ok b =>
      rw [hr] at h
      cases b with
      | true => cases h
      | false =>
        obtain ⟨q, hq, he⟩ := anyMatch_error h
        exact ⟨q, by simp [hq], he⟩

theorem filterKeys_error {names : List Str} {keys columns : List Int} {e : PyErr}
    (h : filterKeys reMatch names keys args.filters = .error e) : Refusal search reMatch args columns clash e := by
  cases hf : args.filters with
  | none => rw [hf] at h; cases h
  | positions l => rw [hf] at h; cases h
  | bad => rw [hf] at h; injection h with h; subst h; exact .value
  | pattern p =>
    rw [hf, filterKeys] at h
    split at h
    · cases h
    · obtain ⟨s, hs⟩ := keysWhere_error h
      exact .badFilter p s (by rw [hf]; simp [filterPatterns]) e hs
  | patterns l =>
    rw [hf, filterKeys] at h
    obtain ⟨s, hs⟩ := keysWhere_error h
    obtain ⟨p, hp, he⟩ := anyMatch_error hs
    exact .badFilter p s (by rw [hf]; exact hp) e he

theorem combineFilters_error {bs : List (List Bool)} {n : Nat} (hne : bs ≠ []) (hn : ∀ b ∈ bs, b.length = n) {e : PyErr}
    {columns : List Int} (h : combineFilters args.strategy bs = .error e) :
    Refusal search reMatch args columns clash e := by
  have fold : ∀ (l : List (RowOp × List Bool)) (acc : List Bool), acc.length = n → (∀ p ∈ l, p.2.length = n) →
      foldBools acc l ≠ .error e := by
    intro l acc h1 h2 he
    obtain ⟨m, hm, -⟩ := foldBools_ok n l acc h1 h2
    rw [hm] at he
    cases he
  match bs, hne with
  | [b], _ => cases h
  | b :: c :: bs, _ =>
    cases hs : args.strategy with
    | or =>
      rw [hs, combineFilters] at h
      · refine absurd h (fold _ _ (hn b (by simp)) fun p hp => ?_)
        obtain ⟨x, hx, rfl⟩ := List.mem_map.mp hp
        exact hn x (List.mem_cons_of_mem _ hx)
      · simp
    | and =>
      rw [hs, combineFilters] at h
      · refine absurd h (fold _ _ (hn b (by simp)) fun p hp => ?_)
        obtain ⟨x, hx, rfl⟩ := List.mem_map.mp hp
        exact hn x (List.mem_cons_of_mem _ hx)
      · simp
    | ops l =>
      rw [hs, combineFilters] at h
      · split at h
        · injection h with h; subst h; exact .value
        · split at h
          · injection h with h; subst h; exact .value
          · refine absurd h (fold _ _ (hn b (by simp)) fun p hp => ?_)
            exact hn p.2 (List.mem_cons_of_mem _ (List.of_mem_zip hp).2)
      · simp
    | bad =>
      rw [hs, combineFilters] at h
      · injection h with h; subst h; exact .badStrategy hs
      · simp

theorem castEach_error : ∀ {l : List (A × Option D)} {e : PyErr}, castEach lib l = .error e → e = .valueError := by
  intro l e h
  rw [castEach_retyped] at h
  split at h
  · cases h
  · injection h with h; exact h.symm

theorem applyDtypes_error {names : List Str} {arrays : List A} {e : PyErr} {dt : DtypesArg D}
    (h : applyDtypes lib names arrays dt = .error e) : e = .valueError := by
  cases dt with
  | none => cases h
  | single d => exact castEach_error h
  | mapping l => exact castEach_error h
  | sequence l =>
    rw [applyDtypes] at h
    split at h
    · injection h with h; exact h.symm
    · exact castEach_error h

theorem tableOfV_error (hlib : lib.Lawful) {grid : Int → View} {keys : List Int} {names : List Str}
    (hl : names.length = keys.length) {off len : Nat} {m : Option (List Bool)} {n : Nat}
    (hn : ∀ k, (grid k off len m).vals.length = n) {e : PyErr}
    (h : tableOfV lib grid keys names args.dtypes off len m = .error e) : e = .valueError := by
  unfold tableOfV at h
  split at h
  · rename_i e' he
    injection h with h
    subst h
    exact applyDtypes_error he
  · rename_i arrays ha
    obtain ⟨h1, h2⟩ := applyDtypes_len hlib (n := n) (by simpa using hl.symm) ha (by
      intro a ha
      obtain ⟨k, -, rfl⟩ := List.mem_map.mp ha
      rw [hlib.of]
      exact hn k)
    rw [makeTable_ok (n := n) (by rw [h1, List.length_map]; exact hl) h2] at h
    cases h

theorem namesForV_error {grid : Int → View} {keys : List Int} {row : Nat} {e : PyErr}
    (h : namesForV env grid keys row args.header = .error e) : e = .valueError := by
  cases hh : args.header with
  | rows n =>
    rw [hh, namesForV] at h
    split at h <;> cases h
  | names l =>
    rw [hh, namesForV] at h
    split at h
    · injection h with h; exact h.symm
    · cases h

theorem lookupRowV_error {grid : Int → View} {order columns : List Int} (ho : ∀ k, k ∈ order ↔ k ∈ columns) {size : Nat}
    {e : PyErr} (h : lookupRowV env grid order size search args.lookup = .error e) :
    Refusal search reMatch args columns clash e := by
  cases hl : args.lookup with
  | none => rw [hl] at h; cases h
  | column k =>
    rw [hl, lookupRowV] at h
    split at h
    · cases h
    · rename_i hk
      injection h with h
      subst h
      exact .noColumn k hl (fun h' => hk ((ho k).2 h'))
  | pattern p =>
    rw [hl, lookupRowV] at h
    split at h
    · rename_i hp
      injection h with h
      subst h
      exact .badSearch p hl hp
    · cases h

theorem sheetTableV_error (hlib : lib.Lawful) {grid : Int → View} {order columns : List Int} {span : Int}
    (ho : ∀ k, k ∈ order ↔ k ∈ columns)
    (hn : ∀ k off len m, (grid k off len m).vals.length = match m with
      | none => len
      | some m => trueCount m) {e : PyErr}
    (h : sheetTableV env lib search reMatch args grid order columns span = .error e) :
    Refusal search reMatch args columns clash e := by
  unfold sheetTableV at h
  split at h
  · rename_i e' he
    injection h with h
    subst h
    exact lookupRowV_error ho he
  · injection h with h; subst h; exact .value
  · rename_i row hrow
    split at h
    · rename_i e' he
      injection h with h
      subst h
      rw [namesForV_error he]
      exact .value
    · rename_i names hnames
      split at h
      · rename_i e' he
        injection h with h
        subst h
        exact filterKeys_error he
      · rename_i fs hfs
        simp only at h
        split at h
        · rename_i e' he
          injection h with h
          subst h
          unfold maskForV at he
          split at he
          · cases he
          · rename_i hne
            split at he
            · rename_i e'' hc
              injection he with he
              subst he
              refine combineFilters_error (n := (span - row - args.header.height - args.skipAfter).toNat) ?_ ?_ hc
              · simpa using hne
              · intro b hb
                obtain ⟨k, -, rfl⟩ := List.mem_map.mp hb
                rw [List.length_map]
                exact hn k _ _ none
            · split at he
              · injection he with he; subst he; exact .value
              · cases he
        · rename_i m hm
          rw [tableOfV_error hlib (namesForV_length hnames) (fun k => hn k _ _ m) h]
          exact .value

theorem view_length (o : ConcatOpts) (H : HGrid) (k : Int) (off len : Nat) (m : Option (List Bool)) :
    (H.view env o k off len m).vals.length = match m with
      | none => len
      | some m => trueCount m := by
  have h := congrArg List.length (fetchedHeld_nulls env o (pickRows (H.rows k) off len m))
  rw [List.length_map, List.length_map] at h
  rw [HGrid.view, h]
  exact pickRows_length _ _ _ _

theorem seen_columns (g : VGrid) (k : Int) : k ∈ g.seen ↔ k ∈ g.columns := by
  simp [VGrid.seen, VGrid.columns, List.mem_insertionSort]

/-- C100: the exceptions for a readable sheet, and why they are raised. -/
theorem C100_reasons (hlib : lib.Lawful) (o : ConcatOpts) (H : HGrid) {e : PyErr}
    (h : H.outcome env lib search reMatch args o = .error e) :
    Refusal search reMatch args H.shape.columns (¬ H.Datable o) e := by
  unfold HGrid.outcome at h
  split at h
  · injection h with h; subst h; exact .value
  split at h
  · rename_i hc
    injection h with h
    subst h
    refine .datesAndShared fun hd => ?_
    rw [clashes_false env search reMatch args o H hd] at hc
    cases hc
  unfold sheetResult at h
  split at h
  · rename_i e' he
    injection h with h
    subst h
    exact lookupRowV_error (seen_columns _) he
  · injection h with h; subst h; exact .value
  · split at h
    · exact sheetTableV_error hlib (seen_columns _) (fun k off len m => view_length o H k off len m) h
    · split at h
      · rename_i e' he
        injection h with h
        subst h
        rw [namesForV_error he]
        exact .value
      · split at h
        · rename_i e' he
          injection h with h
          subst h
          exact filterKeys_error he
        · injection h with h; subst h; exact .value

theorem vgrid_span_pos {g : VGrid} (h : g.flatten ≠ []) : 0 < g.maxSpan := by
  obtain ⟨p, hp⟩ := List.exists_mem_of_ne_nil _ h
  obtain ⟨row, hr, hm⟩ := List.mem_flatten.mp hp
  obtain ⟨r, hr1, hr2⟩ := List.mem_iff_getElem.mp hr
  have hk : p.1 ∈ g.columns := by
    rw [VGrid.columns, List.mem_insertionSort, List.mem_dedup, VGrid.cols]
    exact List.mem_map_of_mem hp
  have hrow : r ∈ g.rowsOf p.1 := by
    rw [VGrid.rowsOf, List.mem_filter]
    refine ⟨by simpa using hr1, ?_⟩
    rw [List.getD_eq_getElem?_getD, List.getElem?_eq_getElem hr1, Option.getD_some, hr2]
    exact List.any_eq_true.mpr ⟨p, hm, by simp⟩
  have hs : 0 < g.span p.1 := by
    unfold VGrid.span
    split
    · rename_i h0; rw [h0] at hrow; cases hrow
    · omega
  have key : ∀ l : List Int, p.1 ∈ l → g.span p.1 ≤ (l.map g.span).foldr max 0 := by
    intro l
    induction l with
    | nil => intro h; cases h
    | cons a l ih =>
      intro h
      simp only [List.map_cons, List.foldr_cons]
      rcases List.mem_cons.mp h with rfl | h
      · exact le_max_left _ _
      · exact le_trans (ih h) (le_max_right _ _)
  exact lt_of_lt_of_le hs (key _ hk)

theorem shape_flatten (H : HGrid) : H.shape.flatten = [] ↔ H.flatten = [] := by
  rw [HGrid.shape, ← List.map_flatten, List.map_eq_nil_iff]

/-- C100, plain arguments: there is a table exactly if the sheet has a cell and a row below the header. -/
theorem C100_plain (hlib : lib.Lawful) (o : ConcatOpts) (H : HGrid) (hd : H.Datable o) (n : Nat)
    (hh : args.header = .rows n) (hl : args.lookup = .none) (hf : args.filters = .none) (ht : args.dtypes = .none) :
    (∃ t, H.outcome env lib search reMatch args o = .ok t) ↔ H.flatten ≠ [] ∧ (n : Int) + args.skipAfter < H.shape.maxSpan := by
  unfold HGrid.outcome
  by_cases hne : H.flatten = []
  · simp [hne]
  rw [if_neg hne, clashes_false env search reMatch args o H hd, if_neg (by decide)]
  unfold sheetResult
  rw [hl]
  simp only [lookupRowV]
  have hheight : args.header.height = n := by rw [hh]; rfl
  rw [hheight]
  obtain ⟨names, hnames⟩ : ∃ names, namesForV env (H.view env o) H.shape.columns 0 args.header = .ok names := by
    rw [hh, namesForV]
    split <;> exact ⟨_, rfl⟩
  by_cases hpos : (n : Int) + args.skipAfter < H.shape.maxSpan
  · rw [if_pos (by omega)]
    refine iff_of_true ?_ ⟨hne, hpos⟩
    unfold sheetTableV
    rw [hl]
    simp only [lookupRowV, hnames, hf, filterKeys, maskForV, List.isEmpty_nil, if_true]
    cases hr : tableOfV lib (H.view env o) H.shape.columns names args.dtypes
        (args.header.height + (0 : Nat) + args.skipAfter).toNat
        (H.shape.maxSpan - (0 : Nat) - args.header.height - args.skipAfter).toNat none with
    | ok t => exact ⟨t, rfl⟩
    | error e =>
      exfalso
      unfold tableOfV at hr
      rw [ht] at hr
      simp only [applyDtypes] at hr
      rw [makeTable_ok (n := (H.shape.maxSpan - (0 : Nat) - args.header.height - args.skipAfter).toNat)] at hr
      · cases hr
      · rw [List.length_map]; exact namesForV_length hnames
      · intro a ha
        obtain ⟨k, -, rfl⟩ := List.mem_map.mp ha
        rw [hlib.of]
        exact view_length o H k _ _ none
  · rw [if_neg (by omega), hnames]
    simp only [hf, filterKeys]
    refine iff_of_false (by rintro ⟨t, ht⟩; cases ht) fun h => hpos h.2

end

theorem flatten_nil {α : Type} (L : List (List α)) : L.flatten = [] ↔ ∀ r ∈ L, r = [] := List.flatten_eq_nil_iff

theorem dropWhile_flatten {α : Type} : ∀ L : List (List α), (L.dropWhile List.isEmpty).flatten = L.flatten
  | [] => rfl
  | [] :: L => by simpa using dropWhile_flatten L
  | (a :: r) :: L => by simp

theorem first_filled {α : Type} : ∀ L : List (List α), (∃ r ∈ L, r ≠ []) →
    ∃ pre x rest, L = pre ++ x :: rest ∧ (∀ r ∈ pre, r = []) ∧ x ≠ []
  | [], h => by simp at h
  | [] :: L, h => by
    obtain ⟨pre, x, rest, e, h1, h2⟩ := first_filled L (by simpa using h)
    exact ⟨[] :: pre, x, rest, by rw [e]; rfl, by simpa using h1, h2⟩
  | (a :: r) :: L, _ => ⟨[], a :: r, L, rfl, by simp, by simp⟩

theorem xlsxRows_flatten {α : Type} (keep : Bool) (L : List (List α)) :
    (xlsxRows 0 0 keep L).flatten = [] ↔ L.flatten = [] := by
  unfold xlsxRows
  cases keep with
  | false => simp only [Bool.false_eq_true, if_false, if_true, dropWhile_flatten]
  | true =>
    simp only [if_true, List.drop_zero, Nat.zero_add, Nat.mul_zero]
    split
    · rfl
    · constructor
      · intro h
        rw [flatten_nil] at h ⊢
        intro r hr
        by_contra hne
        obtain ⟨pre, x, rest, hL, hpre, hx⟩ := first_filled L ⟨r, hr, hne⟩
        have htw : L.takeWhile List.isEmpty = pre := by
          rw [hL, List.takeWhile_append_of_pos (by simpa using hpre)]
          simp [hx]
        refine hx (h x ?_)
        rw [htw, hL, List.take_append]
        refine List.mem_append_right _ ?_
        rw [show 2 * pre.length + 1 - pre.length = pre.length + 1 by omega, List.take_succ_cons]
        exact List.mem_cons_self
      · intro h
        rw [flatten_nil] at h ⊢
        exact fun r hr => h r (List.mem_of_mem_take hr)

theorem keepFirst_flatten {α : Type} (p : α → Bool) : ∀ L : List (List α),
    (keepFirst p L).flatten = [] ↔ L.flatten = []
  | [] => Iff.rfl
  | [] :: L => by simpa [keepFirst] using keepFirst_flatten p L
  | (x :: r) :: L => by simp [keepFirst]

theorem xlsbRows_flatten {α : Type} [DecidableEq α] (keep : Bool) (L : List (List α)) :
    (xlsbRows 0 0 keep L).flatten = [] ↔ L.flatten = [] := by
  unfold xlsbRows
  cases keep with
  | true => simp
  | false =>
    simp only [Bool.false_eq_true, if_false, if_true]
    rw [flatten_nil, flatten_nil]
    constructor
    · intro h r hr
      by_contra hne
      exact hne (h r (List.mem_filter.mpr ⟨hr, by simpa using hne⟩))
    · exact fun h r hr => h r (List.mem_filter.mp hr).1

theorem without_flatten (cols : List Int) (H : HGrid) :
    (H.without cols).flatten ≠ [] ↔ ∃ row ∈ H, ∃ c ∈ row, c.1 ∉ cols := by
  rw [HGrid.without, Ne, flatten_nil]
  simp only [List.mem_map, forall_exists_index, and_imp, forall_apply_eq_imp_iff₂, List.filter_eq_nil_iff,
    decide_eq_true_eq, not_forall, not_not, exists_prop]

/-- C100, XLSX: reading a workbook with the default arguments (or another sheet, with columns left out, empty rows counted,
null values, numeric resolution) gives a table exactly if some cell holds something in a column that is not left out, and
`ValueError` otherwise. -/
theorem C100_xlsx {A D : Type} (env : Env) (lib : Lib A D) (hlib : lib.Lawful) (search : Str → Option (Str → Bool))
    (reMatch : Str → Str → Py Bool) (toInt : Str → Option Int) (pieces : Str → List Str) (a : FileArgs D)
    (hk : a.iter.skipRows = 0) (ht : a.iter.takeRows = 0) (ha : a.table = {})
    (hc : a.conflict ∉ ["temporal".toList, "all".toList]) (z : Archive) (f : XlsxFile)
    (hz : z.HasXlsx pieces f) (isNull : Str → Bool)
    (hnull : ∀ s, isNull s = (decide (s ∈ errorTexts) || a.nulls.asks s))
    (formats : List StyleClass) (shared : List (Option Str)) (g : TGrid)
    (h : f.Stores env toInt a.iter.sheet isNull formats shared g) :
    ((∃ t, readArchive env lib search reMatch toInt pieces a z = .ok t) ↔
      ∃ row ∈ g.held env isNull formats shared, ∃ c ∈ row, c.1 ∉ a.iter.skipCols) ∧
    ∀ e, readArchive env lib search reMatch toInt pieces a z = .error e → e = .valueError := by
  have hsens : a.table.Sensible := by rw [ha]; exact ⟨show (0 : Int) < 30 by decide, le_refl (0 : Int)⟩
  have hd : ∀ H : HGrid, H.Datable (concatOpts a.conflict a.formats a.precision) := by
    intro H hcd
    exfalso
    have : a.conflict ∈ [strTemporal, strAll] := by simpa [concatOpts] using hcd
    exact hc (by simpa [strTemporal, strAll] using this)
  rw [C85_xlsx_full env lib search reMatch toInt pieces a 0 0 hk ht hsens z f hz isNull hnull _ rfl formats shared g h _ rfl
    (fun hne row hrow => Or.inl (by
      rw [ha] at hrow ⊢
      simp only [lookupRowV, Except.ok.injEq, Option.some.injEq] at hrow
      subst hrow
      have := vgrid_span_pos (g := HGrid.shape _) (mt (shape_flatten _).1 hne)
      show (0 : Int) < _ - (0 : Nat) - 0 - 0
      omega))]
  constructor
  · rw [C100_plain hlib _ _ (hd _) 0 (by rw [ha]; rfl) (by rw [ha]) (by rw [ha]) (by rw [ha]), ← without_flatten]
    have e : (HGrid.shownXlsx 0 0 a.iter.keepEmpty a.iter.skipCols (g.held env isNull formats shared)).flatten = [] ↔ _ :=
      xlsxRows_flatten _ _
    rw [Ne, e]
    refine ⟨fun h => h.1, fun hne => ⟨hne, ?_⟩⟩
    rw [ha]
    have := vgrid_span_pos (mt (shape_flatten _).1 (mt e.1 hne))
    show ((0 : Nat) : Int) + 0 < _
    omega
  · intro e he
    have := C100_reasons hlib _ _ he
    cases this with
    | value => rfl
    | noColumn k hl => rw [ha] at hl; cases hl
    | badSearch p hl => rw [ha] at hl; cases hl
    | badFilter p s hp => rw [ha] at hp; cases hp
    | badStrategy hs => rw [ha] at hs; cases hs
    | datesAndShared hc => exact absurd (hd _) hc

/-- C100, XLSB: the same. -/
theorem C100_xlsb {A D : Type} (env : Env) (lib : Lib A D) (hlib : lib.Lawful) (search : Str → Option (Str → Bool))
    (reMatch : Str → Str → Py Bool) (toInt : Str → Option Int) (pieces : Str → List Str) (a : FileArgs D)
    (hk : a.iter.skipRows = 0) (ht : a.iter.takeRows = 0) (ha : a.table = {})
    (hc : a.conflict ∉ ["temporal".toList, "all".toList]) (z : Archive) (f : XlsbFile)
    (hz : z.HasXlsb pieces f) (temporal : List Bytes) (shared : List Str) (g : Grid)
    (h : f.Stores a.iter.sheet temporal shared g) :
    ((∃ t, readArchive env lib search reMatch toInt pieces a z = .ok t) ↔
      ∃ row ∈ g.held temporal shared a.nulls.asks, ∃ c ∈ row, c.1 ∉ a.iter.skipCols) ∧
    ∀ e, readArchive env lib search reMatch toInt pieces a z = .error e → e = .valueError := by
  have hsens : a.table.Sensible := by rw [ha]; exact ⟨show (0 : Int) < 30 by decide, le_refl (0 : Int)⟩
  have hd : ∀ H : HGrid, H.Datable (concatOpts a.conflict a.formats a.precision) := by
    intro H hcd
    exfalso
    have : a.conflict ∈ [strTemporal, strAll] := by simpa [concatOpts] using hcd
    exact hc (by simpa [strTemporal, strAll] using this)
  rw [C85_xlsb_full env lib search reMatch toInt pieces a 0 0 hk ht hsens z f hz _ rfl temporal shared g h _ rfl
    (fun hne row hrow => Or.inl (by
      rw [ha] at hrow ⊢
      simp only [lookupRowV, Except.ok.injEq, Option.some.injEq] at hrow
      subst hrow
      have := vgrid_span_pos (g := HGrid.shape _) (mt (shape_flatten _).1 hne)
      show (0 : Int) < _ - (0 : Nat) - 0 - 0
      omega))]
  constructor
  · rw [C100_plain hlib _ _ (hd _) 0 (by rw [ha]; rfl) (by rw [ha]) (by rw [ha]) (by rw [ha]), ← without_flatten]
    have e : (HGrid.shownXlsb a.nulls.asks 0 0 a.iter.keepEmpty a.iter.skipCols
        (g.held temporal shared a.nulls.asks)).flatten = [] ↔
        ((g.held temporal shared a.nulls.asks).without a.iter.skipCols).flatten = [] := by
      rw [HGrid.shownXlsb, xlsbRows_flatten, List.take_zero, List.nil_append, List.drop_zero, keepFirst_flatten]
    rw [Ne, e]
    refine ⟨fun h => h.1, fun hne => ⟨hne, ?_⟩⟩
    rw [ha]
    have := vgrid_span_pos (mt (shape_flatten _).1 (mt e.1 hne))
    show ((0 : Nat) : Int) + 0 < _
    omega
  · intro e he
    have := C100_reasons hlib _ _ he
    cases this with
    | value => rfl
    | noColumn k hl => rw [ha] at hl; cases hl
    | badSearch p hl => rw [ha] at hl; cases hl
    | badFilter p s hp => rw [ha] at hp; cases hp
    | badStrategy hs => rw [ha] at hs; cases hs
    | datesAndShared hc => exact absurd (hd _) hc

/-- A sheet with a header; the second column has a shared string and a date. -/
def exOutcome : HGrid :=
  [[(0, 0x18, some (.str ['a'])), (1, 0x18, some (.str ['b']))],
    [(0, 0x21, some (.f8 (.fin 1))), (1, 0x11, some (.str ['x']))],
    [(0, 0x21, some (.f8 (.fin 1))), (1, 0x25, some (.ts 86400000))]]

/-- Every one of these exceptions occurs: `ValueError` for a wrong number of names, `KeyError` for the column 7,
`ArrowInvalid` and the exception of the search for patterns that are refused, `TypeError` for a wrong strategy,
`ArrowNotImplementedError` for the shared string beside the date. -/
theorem C100_all_occur :
    let read := fun (args : ReadArgs DType) (o : ConcatOpts) => exOutcome.outcome demoEnv exLib
      (fun p => if p = [] then none else some (· = p)) (fun p s => if p = ['('] then .error .runtimeError else .ok (p = s)) args o
    read { header := .names [['a']] } ⟨false, false, [], 6⟩ = .error .valueError ∧
    read { lookup := .column 7 } ⟨false, false, [], 6⟩ = .error .keyError ∧
    read { lookup := .pattern [] } ⟨false, false, [], 6⟩ = .error .arrowInvalid ∧
    read { filters := .pattern ['('] } ⟨false, false, [], 6⟩ = .error .runtimeError ∧
    read { filters := .positions [0, 1], strategy := .bad } ⟨false, false, [], 6⟩ = .error .typeError ∧
    read {} ⟨true, false, [], 6⟩ = .error .arrowNotImplemented ∧
    (read {} ⟨false, false, [], 6⟩).isOk = true := by
  decide +kernel

example : exOutcome.shape.maxSpan = 3 ∧
    (List.range 5).map (fun n => (exOutcome.outcome demoEnv exLib (fun _ => none) (fun _ _ => .ok false)
      { header := .rows n } ⟨false, false, [], 6⟩).isOk) = [true, true, true, false, false] := by
  decide +kernel

end Rxls
