import Verif.Props.Read
import Verif.Lemmas.ReadInv

/-! # Property C102: which column a number names in `lookup_head`, `row_filters` and `skip_cols` -/

namespace Rxls

theorem columnsOf_mem (cells : List Cell) (k : Int) : k ∈ columnsOf cells ↔ ∃ c ∈ cells, c.col = k := by
  unfold columnsOf
  rw [(List.perm_insertionSort _ _).mem_iff, List.mem_dedup, List.mem_map]

theorem columnsOf_sorted (cells : List Cell) : (columnsOf cells).Pairwise (· < ·) := by
  have h1 : (columnsOf cells).Pairwise (· ≤ ·) := List.pairwise_insertionSort _ _
  have h2 : (columnsOf cells).Nodup := (List.perm_insertionSort _ _).nodup_iff.2 (List.nodup_dedup _)
  exact (List.pairwise_and_iff.2 ⟨h1, h2⟩).imp fun h => lt_of_le_of_ne h.1 h.2

/-- In an increasing list of numbers from 0 the number at a place is at least the place. -/
theorem place_le {l : List Int} (hs : l.Pairwise (· < ·)) (h0 : ∀ k ∈ l, 0 ≤ k) :
    ∀ (i : Nat) (hi : i < l.length), (i : Int) ≤ l[i]
  | 0, hi => h0 _ (List.getElem_mem _)
  | i + 1, hi => by
    have h1 := place_le hs h0 i (by omega)
    have h2 := List.pairwise_iff_getElem.1 hs i (i + 1) (by omega) hi (by omega)
    omega

/-- C102, exact: among the columns of the table, counted from the left, the one with number `i` is column `i` of the sheet
iff every column of the sheet up to `i` has a cell. -/
theorem C102_exact (cells : List Cell) (h0 : ∀ c ∈ cells, 0 ≤ c.col) (i : Nat) :
    (columnsOf cells)[i]? = some (i : Int) ↔ ∀ j ≤ i, ∃ c ∈ cells, c.col = (j : Int) := by
  have hs := columnsOf_sorted cells
  have hn : ∀ k ∈ columnsOf cells, 0 ≤ k := by
    intro k hk
    obtain ⟨c, hc, rfl⟩ := (columnsOf_mem cells k).1 hk
    exact h0 c hc
  constructor
  · intro h j hj
    obtain ⟨hi, he⟩ := List.getElem?_eq_some_iff.1 h
    rw [← columnsOf_mem]
    have key : ∀ d : Nat, d ≤ i → (columnsOf cells)[i - d]'(by omega) = ((i - d : Nat) : Int) := by
      intro d
      induction d with
      | zero => intro _; simpa using he
      | succ d ih =>
        intro hd
        have h1 := ih (by omega)
        have h2 := place_le hs hn (i - (d + 1)) (by omega)
        have h3 := List.pairwise_iff_getElem.1 hs (i - (d + 1)) (i - d) (by omega) (by omega) (by omega)
        rw [h1] at h3
        omega
    have := key (i - j) (by omega)
    have e : i - (i - j) = j := by omega
    simp only [e] at this
    rw [← this]
    exact List.getElem_mem _
  · intro h
    have key : ∀ j : Nat, j ≤ i → ∃ hj : j < (columnsOf cells).length, (columnsOf cells)[j] = (j : Int) := by
      intro j
      induction j using Nat.strong_induction_on with
      | _ j ih =>
        intro hj
        obtain ⟨p, hp, hpe⟩ := List.getElem_of_mem ((columnsOf_mem cells j).2 (h j hj))
        have hle := place_le hs hn p hp
        rw [hpe] at hle
        rcases Nat.lt_or_ge p j with hlt | hge
        · obtain ⟨q, e⟩ := ih p hlt (by omega)
          rw [hpe] at e
          omega
        · have : p = j := by omega
          subst this
          exact ⟨hp, hpe⟩
    obtain ⟨hi, he⟩ := key i le_rfl
    exact List.getElem?_eq_some_iff.2 ⟨hi, he⟩

/-- C102, `row_filters=[i]` filters by the column with number `i` in the table: the rows kept are those where that column
has a value, and in the table it has no null, whatever `row_filters_strategy` is. -/
theorem C102_table_column {A D : Type} (env : Env) (b : Bool) (shared : List (Option Str)) (o : ConcatOpts)
    (lib : Lib A D) (search : Str → Option (Str → Bool))
    (re : Str → Str → Bool) (args : ReadArgs D) (cells : List Cell)
    (hr : ∀ k, Resolvable env o (inlineColumn cells k) (colValues env b shared cells k)) (hv : PresentCells env b shared cells)
    (hs : 0 < args.lookupSize) (hh : 0 ≤ args.header.height) (hlk : args.lookup = .none) (hdt : args.dtypes = .none)
    (hlen : 0 < maxSpan cells - args.header.height - args.skipAfter) (names : List Str)
    (hnames : namesFor env o (colValues env b shared cells) (columnsOf cells) 0 args.header = .ok names)
    (i : Nat) (k : Int) (hk : (columnsOf cells)[i]? = some k) (hf : args.filters = .positions [(i : Int)]) (t : Table A)
    (ht : readCells env lib search (fun p n => .ok (re p n)) args (freshSeries shared b o) cells = .ok t) :
    let off := (args.header.height + args.skipAfter).toNat
    let len := (maxSpan cells - args.header.height - args.skipAfter).toNat
    let m := presentRows env o (window (colValues env b shared cells k) off len)
    t = ⟨names, (columnsOf cells).map fun j =>
        lib.ofFetched (.arr (fetched env o (maskedRows (colValues env b shared cells j) off m)))⟩ ∧
      ∃ a : Arr, t.arrays[i]? = some (lib.ofFetched (.arr a)) ∧ ∀ v ∈ a.vals, v ≠ none := by
  intro off len m
  obtain ⟨hi, hki⟩ := List.getElem?_eq_some_iff.1 hk
  have hne : cells ≠ [] := by rintro rfl; simp [columnsOf] at hk
  have hnl := namesFor_length hnames
  have hfs : filterKeys (fun p n => .ok (re p n)) names (columnsOf cells) args.filters = .ok [k] := by
    rw [hf, (C56_filter_columns re names (columnsOf cells) hnl).1]
    congr 1
    have : ((List.range (columnsOf cells).length).filter fun (j : Nat) => (j : Int) ∈ [(i : Int)]) = [i] := by
      have e : (fun (j : Nat) => decide ((j : Int) ∈ [(i : Int)])) = fun j => j == i := by
        funext j
        simp [Bool.beq_eq_decide_eq]
      rw [e, List.filter_beq, List.count_eq_one_of_mem List.nodup_range (List.mem_range.2 hi)]
      rfl
    rw [this]
    simp [List.getElem?_eq_getElem hi, hki]
  obtain ⟨m', hm, hpos, he⟩ := C56_kept_rows env b shared o lib search _ args cells hne hr hv hs hh hlk hdt hlen names
    hnames [k] hfs (by simp) t ht
  have hmm : m' = m := by
    simp only [List.map_cons, List.map_nil, combineFilters] at hm
    injection hm with hm
    exact hm.symm
  subst hmm
  refine ⟨he, fetched env o (maskedRows (colValues env b shared cells k) off m), ?_, ?_⟩
  · rw [he]
    simp only [List.getElem?_map, hk, Option.map_some]
    rfl
  · intro v hv
    have hfet : ∀ l, (fetched env o l).vals.map Option.isSome = l.map Option.isSome := by
      intro l
      rw [← resolved_isSome env o l, fetched, materialise, List.map_map]
      refine List.map_congr_left fun v _ => ?_
      cases v <;> rfl
    have hsome : (fetched env o (maskedRows (colValues env b shared cells k) off m)).vals.map Option.isSome =
        (maskedRows (colValues env b shared cells k) off m).map Option.isSome := by
      exact hfet _
    have hall : ∀ x ∈ (maskedRows (colValues env b shared cells k) off m).map Option.isSome, x = true := by
      intro x hx
      obtain ⟨w, hw, rfl⟩ := List.mem_map.1 hx
      obtain ⟨j, hj, rfl⟩ := List.mem_map.1 hw
      have hj := (List.mem_filter.1 hj).2
      have hj : m[j]? = some true := by simpa using hj
      have hw2 : (window (colValues env b shared cells k) off len).map Option.isSome =
          (fetched env o (window (colValues env b shared cells k) off len)).vals.map Option.isSome := by
        exact (hfet _).symm
      have hg := congrArg (·[j]?) hw2
      simp only [List.getElem?_map] at hg
      simp only [m, presentRows, List.getElem?_map] at hj
      cases hx : (fetched env o (window (colValues env b shared cells k) off len)).vals[j]? with
      | none => rw [hx] at hj; cases hj
      | some x =>
        rw [hx] at hj hg
        cases x with
        | none => simp [present] at hj
        | some y =>
          simp only [window, List.getElem?_map, Option.map_some, Option.isSome_some] at hg
          cases hz : (List.range len)[j]? with
          | none => rw [hz] at hg; cases hg
          | some z =>
            have hzj : z = j := by
              obtain ⟨hl, e⟩ := List.getElem?_eq_some_iff.1 hz
              simpa using e.symm
            rw [hz] at hg
            subst hzj
            simpa using hg
    rw [← hsome] at hall
    rintro rfl
    exact absurd (hall _ (List.mem_map_of_mem hv)) (by simp)

/-- C102, the part that holds: if every column of the sheet up to `i` has a cell, then `row_filters=[i]` keeps the rows
with a value in column `i` of the sheet, the column that `lookup_head=i` looks at (`C55_by_column`) and `skip_cols=[i]`
leaves out (`C40_skip_cols`).  Missing: sheets with an empty column further left, where it is false (below). -/
theorem C102_same_column_partial {A D : Type} (env : Env) (b : Bool) (shared : List (Option Str)) (o : ConcatOpts)
    (lib : Lib A D) (search : Str → Option (Str → Bool))
    (re : Str → Str → Bool) (args : ReadArgs D) (cells : List Cell)
    (hr : ∀ k, Resolvable env o (inlineColumn cells k) (colValues env b shared cells k)) (hv : PresentCells env b shared cells)
    (hs : 0 < args.lookupSize) (hh : 0 ≤ args.header.height) (hlk : args.lookup = .none) (hdt : args.dtypes = .none)
    (hlen : 0 < maxSpan cells - args.header.height - args.skipAfter) (names : List Str)
    (hnames : namesFor env o (colValues env b shared cells) (columnsOf cells) 0 args.header = .ok names)
    (h0 : ∀ c ∈ cells, 0 ≤ c.col)
    (i : Nat) (hi : ∀ j ≤ i, ∃ c ∈ cells, c.col = (j : Int)) (hf : args.filters = .positions [(i : Int)]) (t : Table A)
    (ht : readCells env lib search (fun p n => .ok (re p n)) args (freshSeries shared b o) cells = .ok t) :
    let off := (args.header.height + args.skipAfter).toNat
    let len := (maxSpan cells - args.header.height - args.skipAfter).toNat
    let m := presentRows env o (window (colValues env b shared cells i) off len)
    t = ⟨names, (columnsOf cells).map fun j =>
        lib.ofFetched (.arr (fetched env o (maskedRows (colValues env b shared cells j) off m)))⟩ :=
  (C102_table_column env b shared o lib search re args cells hr hv hs hh hlk hdt hlen names hnames i i
    ((C102_exact cells h0 i).2 hi) hf t ht).1

/-- A sheet without column A: a title in C, then a table with the columns B, C and D. -/
def exNoA : List Cell := [tx 0 2 ['t'], tx 1 1 ['b'], tx 1 2 ['c'], tx 1 3 ['d'],
  nm 2 1 1, nm 2 2 4, nm 2 3 6, nm 3 1 2, nm 3 3 7, nm 4 1 3, nm 4 2 5]

example : columnsOf exNoA = [1, 2, 3] ∧
    (exRead { header := .rows 1, lookup := .column 1, filters := .positions [1] } exNoA) =
      .ok ⟨[['b'], ['c'], ['d']], [.arr ⟨.i8, [some (.i8 1), some (.i8 3)]⟩, .arr ⟨.i8, [some (.i8 4), some (.i8 5)]⟩,
        .arr ⟨.i8, [some (.i8 6), none]⟩]⟩ ∧
    ∀ s ∈ [Strategy.or, .and, .ops [], .bad],
      exRead { header := .rows 1, lookup := .column 1, filters := .positions [1], strategy := s } exNoA =
        exRead { header := .rows 1, lookup := .column 1, filters := .positions [1] } exNoA := by
  decide +kernel

/-- C102 is violated on a sheet without column A: `lookup_head=1` and `row_filters=[1]` in one call are two columns, B and
C; the number that filters by column B is 0, and as `lookup_head` that number is refused. -/
theorem C102_finding :
    (exRead { header := .rows 1, lookup := .column 1 } exNoA).map (·.names) = .ok [['b'], ['c'], ['d']] ∧
    (exRead { header := .rows 1, lookup := .column 2 } exNoA).map (·.names) = .ok [unnamed, ['t'], unnamed] ∧
    exRead { header := .rows 1, lookup := .column 1, filters := .positions [1] } exNoA =
      exRead { header := .rows 1, lookup := .column 1, filters := .pattern ['c'] } exNoA ∧
    exRead { header := .rows 1, lookup := .column 1, filters := .positions [0] } exNoA =
      exRead { header := .rows 1, lookup := .column 1, filters := .pattern ['b'] } exNoA ∧
    exRead { header := .rows 1, lookup := .column 1, filters := .positions [0] } exNoA ≠
      exRead { header := .rows 1, lookup := .column 1, filters := .positions [1] } exNoA ∧
    exRead { header := .rows 1, lookup := .column 0 } exNoA = .error .keyError := by
  decide +kernel

end Rxls
