import Verif.Lemmas.ReadTable
import Verif.Lemmas.ReadMisc
import Verif.Spec.DemoEnv

/-! # Properties C53 to C61: from cells to a table

`freshSeries shared binary o` is the empty column that `read` makes; `o.confDt = o.confNum = false` is the default
`conflict_resolve="no"`, for which every column is `Resolvable`.  `PresentCells` says that every cell has a valid
payload. -/

namespace Rxls

/-- Arrays as they come from the columns; a cast to text works, others do not. -/
def exLib : Lib Fetched DType where
  ofFetched := id
  arrId := fun f => match f with
    | .nulls _ => 99
    | .arr a => a.dtype.ctorIdx
  typeId := DType.ctorIdx
  cast := fun f d => match f, d with
    | .nulls n, d => some (.arr ⟨d, List.replicate n none⟩)
    | .arr a, .utf8 => (castArr demoEnv .utf8 a).toOption.map .arr
    | _, _ => none
  len := Fetched.rows

/-- Defaults, a text cell, and a cell with an RK number. -/
def exConcat : ConcatOpts := ⟨false, false, [], 6⟩
def tx (row : Nat) (col : Int) (s : Str) : Cell := ⟨row, col, 0x18, .text s⟩
def nm (row : Nat) (col : Int) (n : Nat) : Cell := ⟨row, col, 0x21, .bytes [UInt8.ofNat (4 * n + 2), 0, 0, 0]⟩

/-- `read` on cells of an XLSB sheet with the pattern "equal to". -/
def exRead (args : ReadArgs DType) (cells : List Cell) : Py (Table Fetched) :=
  readCells demoEnv exLib (fun p => if p = [] then none else some (· = p)) (fun p s => .ok (p = s)) args
    (freshSeries [] true exConcat) cells

/-! ## C53 -/

/-- C53.  The names under a header of `n` rows starting at `row` are the composed header cells of each column, left to
right; the columns are as before afterwards. -/
theorem C53_header_names (env : Env) (b : Bool) (shared : List (Option Str)) (o : ConcatOpts)
    (cells : List Cell) (hr : ∀ k, Resolvable env o (inlineColumn cells k) (colValues env b shared cells k))
    (hv : PresentCells env b shared cells)
    (row n : Nat) (hpos : 0 < n) :
    ∃ cols cols', collect env (freshSeries shared b o) [] cells = .ok cols ∧
      makeHeader env cols row n = .ok (cols',
        (List.range (columnsOf cells).length).map (headName (headGrid env o b shared cells row n) n)) := by
  obtain ⟨cols, e, hc⟩ := collect_ok env b shared o cells hv.valid
  obtain ⟨hst, _⟩ := hc.stand (fun k => (hr k).datable) hv
  rw [runsView_plain hr] at hst
  obtain ⟨cols', e2, _, _⟩ := makeHeader_stands hst row n hpos
  refine ⟨cols, cols', e, ?_⟩
  rw [e2]
  have hl : cols.length = (columnsOf cells).length := by
    rw [← hc.sorted, sortedKeys, List.length_insertionSort, List.length_map]
  rw [hl, hc.sorted]
  rfl

/-- C53.  The header cells of a column of texts are its texts. -/
theorem C53_text_header (env : Env) (o : ConcatOpts) (l : List (Option Str)) :
    headTexts env o (l.map (Option.map Val.str)) = l := by
  have h1 : (l.map (Option.map Val.str)).any isTs = false := by
    rw [List.any_eq_false]
    intro x hx
    obtain ⟨y, _, rfl⟩ := List.mem_map.mp hx
    cases y <;> simp [isTs]
  have h2 : (l.map (Option.map Val.str)).any isNum = false := by
    rw [List.any_eq_false]
    intro x hx
    obtain ⟨y, _, rfl⟩ := List.mem_map.mp hx
    cases y <;> simp [isNum]
  have ht : columnType o.prec (l.map (Option.map Val.str)) = .utf8 := by
    unfold columnType
    simp only [h1, h2]
    cases (l.map (Option.map Val.str)).any isText <;> rfl
  have hr : resolved env o (l.map (Option.map Val.str)) = l.map (Option.map Val.str) := by simp only [resolved, h1, h2]; simp
  unfold headTexts fetched materialise
  rw [hr, ht]
  simp only [List.map_map]
  conv_rhs => rw [← List.map_id l]
  apply List.map_congr_left
  intro x _
  cases x <;> rfl

/-- C53.  The composition alone: for every grid of `n` rows. -/
theorem C53_composition (n : Nat) (H : List (List (Option Str))) (h : ∀ c ∈ H, c.length = n) :
    headerLoop [] H = (List.range H.length).map (headName H n) :=
  headerLoop_names n H h

/-- Merged header: `a` above `x`, `y`; then an empty column; then `b` above `z`. -/
def exHeader : List Cell :=
  [tx 0 0 ['a'], tx 0 4 ['b'], tx 1 0 ['x'], tx 1 1 ['y'], tx 1 4 ['z'], nm 2 0 1, nm 2 1 2, nm 2 2 3, nm 2 4 4]

example : (exRead { header := .rows 2 } exHeader).map (·.names) =
    .ok [['a', ',', ' ', 'x'], ['a', ',', ' ', 'y'], unnamed, ['b', ',', ' ', 'z']] := by
  decide +kernel

example : (List.range 4).map (headName [[some ['a'], some ['x']], [none, some ['y']], [none, none],
    [some ['b'], some ['z']]] 2) = [['a', ',', ' ', 'x'], ['a', ',', ' ', 'y'], unnamed, ['b', ',', ' ', 'z']] := by
  decide +kernel

/-! ## C54 -/

/-- Finding, C54 fails: names from a header are not made unique.  Two columns with the same header text get the same
name, and all columns without one are `Unnamed`. -/
theorem C54_duplicate_names :
    (exRead { header := .rows 1 } [tx 0 0 ['a'], tx 0 1 ['a'], nm 1 0 1, nm 1 1 2, nm 1 2 3, nm 1 3 4]).map (·.names) =
      .ok [['a'], ['a'], unnamed, unnamed] := by
  decide +kernel

/-- The names that `__make_header` makes unique and does not return: they exist, are pairwise distinct, and there is one
for each column. -/
theorem C54_discarded_names (names : List Str) :
    ∃ r, resultHdrs [] names = some r ∧ r.Nodup ∧ r.length = names.length := by
  obtain ⟨r, h1, h2, h3⟩ := resultHdrs_ok names [] List.nodup_nil
  exact ⟨r, h1, h2, by simpa using h3⟩

/-- C54, partial: without a header the names are distinct.  Missing: names from a header, which may repeat. -/
theorem C54_positional_partial (env : Env) (cols : Cols) (row : Int) :
    ∃ names, headerOf env cols row (.rows 0) = .ok (cols, 0, names) ∧ names.Nodup ∧ names.length = cols.length :=
  ⟨_, rfl, positional_nodup _, by simp⟩

/-- C54, exactly: the names taken from a header are distinct if and only if no two columns are composed the same name;
and only then does the discarded list agree with them, so keeping it would change nothing else. -/
theorem C54_exact (env : Env) (b : Bool) (shared : List (Option Str)) (o : ConcatOpts)
    (cells : List Cell) (hr : ∀ k, Resolvable env o (inlineColumn cells k) (colValues env b shared cells k))
    (hv : PresentCells env b shared cells) (row n : Nat) (hpos : 0 < n) :
    ∃ cols cols' names, collect env (freshSeries shared b o) [] cells = .ok cols ∧
      makeHeader env cols row n = .ok (cols', names) ∧
      (names.Nodup ↔ ∀ j, j < (columnsOf cells).length → ∀ i < j,
        headName (headGrid env o b shared cells row n) n i ≠ headName (headGrid env o b shared cells row n) n j) ∧
      (resultHdrs [] names = some names ↔ names.Nodup) := by
  obtain ⟨cols, cols', e1, e2⟩ := C53_header_names env b shared o cells hr hv row n hpos
  refine ⟨cols, cols', _, e1, e2, ?_, ?_⟩
  · rw [List.Nodup, List.pairwise_map]
    constructor
    · intro h j hj i hi
      have := List.pairwise_iff_getElem.1 h i j (by simp; omega) (by simpa using hj) hi
      simpa using this
    · intro h
      rw [List.pairwise_iff_getElem]
      intro i j hi hj hij
      simpa using h j (by simpa using hj) i hij
  · constructor
    · intro h
      obtain ⟨r, h1, h2, _⟩ := resultHdrs_ok _ [] List.nodup_nil
      rw [h] at h1
      cases h1
      exact h2
    · intro h
      have key : ∀ (l taken : List Str), (taken ++ l).Nodup → resultHdrs taken l = some (taken ++ l) := by
        intro l
        induction l with
        | nil => intro taken _; simp [resultHdrs]
        | cons x l ih =>
          intro taken hn
          have hx : x ∉ taken := fun hm => (List.nodup_append.1 hn).2.2 x hm x (by simp) rfl
          have hu : uniqueName taken x (taken.length + 2) 1 x = some x := by rw [uniqueName, if_neg hx]
          rw [resultHdrs, hu]
          simp only
          rw [ih (taken ++ [x]) (by simpa using hn)]
          simp
      simpa using key _ [] (by simpa using h)

example : (exRead { header := .rows 1 } [tx 0 0 ['a'], tx 0 1 ['b'], nm 1 0 1, nm 1 1 2, nm 1 2 3]).map (·.names) =
      .ok [['a'], ['b'], unnamed] ∧
    resultHdrs [] [['a'], ['b'], unnamed] = some [['a'], ['b'], unnamed] := by decide +kernel

example : resultHdrs [] [['a'], ['a'], ['a', '.', '1'], unnamed, unnamed] =
    some [['a'], ['a', '.', '1'], ['a', '.', '1', '.', '1'], unnamed, unnamed ++ ['.', '1']] := by
  decide +kernel

/-! ## C55 -/

/-- C55, by column: the first row of the window with a cell in column `k`, or -1. -/
theorem C55_by_column (env : Env) (b : Bool) (shared : List (Option Str)) (o : ConcatOpts)
    (cells : List Cell) (hr : ∀ k, Datable o (inlineColumn cells k) (colValues env b shared cells k))
    (hv : PresentCells env b shared cells)
    (search : Str → Option (Str → Bool)) (size : Nat) (hs : 0 < size) (k : Int) (hk : ∃ c ∈ cells, c.col = k) :
    ∃ cols cols' r, collect env (freshSeries shared b o) [] cells = .ok cols ∧
      findHeader env search cols size (.column k) = .ok (cols', r) ∧
      ((∃ i : Nat, r = i ∧ i < size ∧ (rawAt (colCells cells k) i).isSome ∧
          ∀ j < i, rawAt (colCells cells k) j = none) ∨
        (r = -1 ∧ ∀ j < size, rawAt (colCells cells k) j = none)) := by
  obtain ⟨cols, e, hc⟩ := collect_ok env b shared o cells hv.valid
  obtain ⟨hst, _⟩ := hc.stand hr hv
  have hf := findHeader_stands hst search size hs (.column k)
  have hkm : k ∈ cols.map (·.1) := (hc.keys k).mpr hk
  unfold lookupRowV at hf
  simp only [if_pos hkm] at hf
  rw [findIdx_map_eq Option.isSome Option.isSome (runsView env o b shared cells k 0 size none).vals (window (colValues env b shared cells k) 0 size)
    ((fetchedRuns_isSome env o _).trans (numbered_isSome env b shared cells k 0 size none))] at hf
  obtain ⟨cols', e2, _, _⟩ := hf
  refine ⟨cols, cols', _, e, e2, ?_⟩
  have hat : ∀ i, (cellAt (colValues env b shared cells k) i).isSome = (rawAt (colCells cells k) i).isSome := by
    intro i
    unfold cellAt colValues
    rw [List.getElem?_map]
    by_cases hi : i < height (colCells cells k)
    · have : (rawColumn (colCells cells k))[i]? = some (rawAt (colCells cells k) i) := by
        simp [rawColumn, hi]
      rw [this]
      simp only [Option.map_some, Option.join_some]
      cases hr : rawAt (colCells cells k) i with
      | none => rfl
      | some p =>
        obtain ⟨x, v⟩ := p
        obtain ⟨c, hcm, rfl, rfl⟩ := rawAt_mem hr
        obtain ⟨y, hy⟩ := colCells_present hv k c hcm
        simp [rowValue, hy]
    · have h1 : (rawColumn (colCells cells k))[i]? = none := List.getElem?_eq_none (by simp [rawColumn]; omega)
      have h2 : rawAt (colCells cells k) i = none := by
        unfold rawAt
        rw [find_ge _ _ (by omega)]
      rw [h1, h2]; rfl
  cases hr : (window (colValues env b shared cells k) 0 size).findIdx? Option.isSome with
  | none =>
    right
    refine ⟨rfl, fun j hj => ?_⟩
    rw [List.findIdx?_eq_none_iff] at hr
    have := hr (cellAt (colValues env b shared cells k) (0 + j))
      (List.mem_map_of_mem (f := fun i => cellAt _ (0 + i)) (List.mem_range.mpr hj))
    rw [Nat.zero_add, hat] at this
    simpa using this
  | some i =>
    left
    rw [List.findIdx?_eq_some_iff_getElem] at hr
    obtain ⟨hl, h1, h2⟩ := hr
    rw [window_length] at hl
    simp only [window, List.getElem_map, List.getElem_range, Nat.zero_add] at h1 h2
    refine ⟨i, rfl, hl, by rw [← hat]; exact h1, fun j hj => ?_⟩
    have := h2 j hj
    rw [hat] at this
    simpa using this

/-- C55, by pattern: the first matching row of the first column, in reading order, with a match; -1 if there is none. -/
theorem C55_by_pattern (env : Env) (b : Bool) (shared : List (Option Str)) (o : ConcatOpts)
    (cells : List Cell) (hr : ∀ k, Resolvable env o (inlineColumn cells k) (colValues env b shared cells k))
    (hv : PresentCells env b shared cells)
    (search : Str → Option (Str → Bool)) (size : Nat) (hs : 0 < size) (p : Str) (f : Str → Bool)
    (hp : search p = some f) :
    ∃ cols cols', collect env (freshSeries shared b o) [] cells = .ok cols ∧
      findHeader env search cols size (.pattern p) = .ok (cols',
        match (firstSeen cells).findSome? fun k =>
          (headTexts env o (window (colValues env b shared cells k) 0 size)).findIdx? (Option.any f) with
        | some i => (i : Int)
        | none => -1) := by
  obtain ⟨cols, e, hc⟩ := collect_ok env b shared o cells hv.valid
  obtain ⟨hst, _⟩ := hc.stand (fun k => (hr k).datable) hv
  rw [runsView_plain hr] at hst
  have hf := findHeader_stands hst search size hs (.pattern p)
  unfold lookupRowV at hf
  simp only [hp] at hf
  obtain ⟨cols', e2, _, _⟩ := hf
  exact ⟨cols, cols', e, by rw [e2, hc.order]; rfl⟩

/-- C55.  If nothing is found `read` raises ValueError, whatever the other arguments. -/
theorem C55_not_found {A D : Type} (env : Env) (lib : Lib A D) (search : Str → Option (Str → Bool))
    (reMatch : Str → Str → Py Bool) (args : ReadArgs D) (cols cols' : Cols) (hne : cols ≠ [])
    (h : findHeader env search cols args.lookupSize args.lookup = .ok (cols', -1)) :
    readColumns env lib search reMatch args cols = .error .valueError := by
  obtain ⟨q, qs, rfl⟩ := List.exists_cons_of_ne_nil hne
  unfold readColumns
  simp only [maxLen, h, if_true]

/-- C55.  A column without cells as `lookup_head` raises KeyError. -/
theorem C55_no_such_column (env : Env) (search : Str → Option (Str → Bool)) (cols : Cols) (size : Int) (k : Int)
    (h : ∀ q ∈ cols, q.1 ≠ k) : findHeader env search cols size (.column k) = .error .keyError := by
  have : (cols.find? fun q => q.1 = k) = none := by
    rw [List.find?_eq_none]
    intro q hq
    simpa using h q hq
  simp [findHeader, onColumn, this]

/-- A title and a table below it. -/
def exTitle : List Cell := [tx 0 1 ['t'], tx 2 0 ['h'], tx 2 1 ['i'], nm 3 0 7, nm 3 1 8]

example : (exRead { header := .rows 1, lookup := .column 0 } exTitle) =
      .ok ⟨[['h'], ['i']], [.arr ⟨.i8, [some (.i8 7)]⟩, .arr ⟨.i8, [some (.i8 8)]⟩]⟩ ∧
    (exRead { header := .rows 1, lookup := .column 1 } exTitle).map (·.names) = .ok [unnamed, ['t']] ∧
    (exRead { header := .rows 1, lookup := .pattern ['i'] } exTitle) =
      .ok ⟨[['h'], ['i']], [.arr ⟨.i8, [some (.i8 7)]⟩, .arr ⟨.i8, [some (.i8 8)]⟩]⟩ ∧
    (exRead { lookup := .pattern ['z'] } exTitle) = .error .valueError ∧
    (exRead { lookup := .column 5 } exTitle) = .error .keyError := by
  decide +kernel

/-! ## C56 -/

/-- C56, "or": a row is kept iff some filter column has a value there. -/
theorem C56_or (n : Nat) (bs : List (List Bool)) (hne : bs ≠ []) (hl : ∀ b ∈ bs, b.length = n) :
    ∃ m, combineFilters .or bs = .ok m ∧ m.length = n ∧
      ∀ i < n, m.getD i false = bs.any fun b => b.getD i false := by
  match bs, hne with
  | [b], _ => exact ⟨b, rfl, hl b (by simp), fun i _ => by simp⟩
  | b :: c :: bs, _ =>
    obtain ⟨m, e, h1, h2⟩ := foldBools_ok n ((c :: bs).map fun x => (RowOp.or, x)) b (hl b (by simp)) (by
      intro p hp
      obtain ⟨x, hx, rfl⟩ := List.mem_map.mp hp
      exact hl x (by simp only [List.mem_cons] at hx ⊢; tauto))
    exact ⟨m, e, h1, fun i hi => by rw [h2 i hi, foldl_or, List.any_cons (a := b)]⟩

/-- C56, "and": a row is kept iff every filter column has a value there. -/
theorem C56_and (n : Nat) (bs : List (List Bool)) (hne : bs ≠ []) (hl : ∀ b ∈ bs, b.length = n) :
    ∃ m, combineFilters .and bs = .ok m ∧ m.length = n ∧
      ∀ i < n, m.getD i false = bs.all fun b => b.getD i false := by
  match bs, hne with
  | [b], _ => exact ⟨b, rfl, hl b (by simp), fun i _ => by simp⟩
  | b :: c :: bs, _ =>
    obtain ⟨m, e, h1, h2⟩ := foldBools_ok n ((c :: bs).map fun x => (RowOp.and, x)) b (hl b (by simp)) (by
      intro p hp
      obtain ⟨x, hx, rfl⟩ := List.mem_map.mp hp
      exact hl x (by simp only [List.mem_cons] at hx ⊢; tauto))
    exact ⟨m, e, h1, fun i hi => by rw [h2 i hi, foldl_and, List.all_cons (a := b)]⟩

/-- C56, a list of operators: applied from left to right. -/
theorem C56_operators (n : Nat) (b : List Bool) (rest : List (RowOp × List Bool)) (hne : rest ≠ [])
    (hb : b.length = n) (hl : ∀ p ∈ rest, p.2.length = n) (hop : ∀ p ∈ rest, p.1 ≠ .bad) :
    ∃ m, combineFilters (.ops (rest.map (·.1))) (b :: rest.map (·.2)) = .ok m ∧ m.length = n ∧
      ∀ i < n, m.getD i false =
        rest.foldl (fun a p => if p.1 = .and then a && p.2.getD i false else a || p.2.getD i false) (b.getD i false) := by
  obtain ⟨m, e, h1, h2⟩ := foldBools_ok n rest b hb hl
  refine ⟨m, ?_, h1, fun i hi => by rw [h2 i hi]; rfl⟩
  match rest, hne with
  | r :: rest, _ =>
    have hc : ((r :: rest).map (·.1)).contains RowOp.bad = false := by
      rw [List.contains_eq_any_beq, List.any_eq_false]
      intro x hx
      obtain ⟨p, hp, rfl⟩ := List.mem_map.mp hx
      have := hop p hp
      simpa using fun h => this h.symm
    have hz : ((r :: rest).map (·.1)).zip ((r :: rest).map (·.2)) = r :: rest := by
      rw [List.zip_map', List.map_id']
    rw [List.map_cons (f := fun p : RowOp × List Bool => p.2), combineFilters]
    · simp only [hc]
      rw [← List.map_cons (f := fun p : RowOp × List Bool => p.2), hz]
      simpa using e
    · simp

/-- C56.  With two or more filters a list of another length, an unknown operator and a strategy of another type are
refused. -/
theorem C56_refused (b c : List Bool) (bs : List (List Bool)) :
    (∀ l : List RowOp, l.length ≠ bs.length + 1 → combineFilters (.ops l) (b :: c :: bs) = .error .valueError) ∧
    (∀ l : List RowOp, l.length = bs.length + 1 → RowOp.bad ∈ l →
      combineFilters (.ops l) (b :: c :: bs) = .error .valueError) ∧
    combineFilters .bad (b :: c :: bs) = .error .typeError := by
  refine ⟨fun l h => ?_, fun l h hb => ?_, rfl⟩
  · rw [combineFilters]
    · simp [h]
    · simp
  · rw [combineFilters]
    · simp [h, hb]
    · simp

/-- Finding: with one filter column the strategy is not looked at. -/
theorem C56_single_unchecked (s : Strategy) (b : List Bool) : combineFilters s [b] = .ok b := rfl

/-- C56, the filter columns: positions count the columns from the left; patterns go by the name. -/
theorem C56_filter_columns (re : Str → Str → Bool) (names : List Str) (keys : List Int)
    (hl : names.length = keys.length) :
    (∀ l : List Int, filterKeys (fun p n => .ok (re p n)) names keys (.positions l) =
      .ok (((List.range keys.length).filter fun (i : Nat) => (i : Int) ∈ l).map fun i => keys.getD i 0)) ∧
    (∀ p, p ≠ [] → filterKeys (fun p n => .ok (re p n)) names keys (.pattern p) =
      .ok (((List.range keys.length).filter fun i => re p (names.getD i [])).map fun i => keys.getD i 0)) ∧
    (∀ ps, filterKeys (fun p n => .ok (re p n)) names keys (.patterns ps) =
      .ok (((List.range keys.length).filter fun i => ps.any fun p => re p (names.getD i [])).map
        fun i => keys.getD i 0)) ∧
    filterKeys (fun p n => .ok (re p n)) names keys .bad = .error .valueError := by
  have hz : ∀ test : Str → Bool, keysWhere (fun n => .ok (test n)) (names.zip keys) =
      .ok (((List.range keys.length).filter fun i => test (names.getD i [])).map fun i => keys.getD i 0) := by
    intro test
    rw [keysWhere_mem]
    have : names.zip keys = (List.range keys.length).map fun i => (names.getD i [], keys.getD i 0) := by
      apply List.ext_getElem
      · simp [hl]
      · intro i h1 h2
        simp only [List.length_zip] at h1
        simp [List.getElem?_eq_getElem (show i < names.length by omega),
          List.getElem?_eq_getElem (show i < keys.length by omega)]
    rw [this, List.filter_map, List.map_map]
    rfl
  refine ⟨fun l => ?_, fun p hp => ?_, fun ps => ?_, rfl⟩
  · rw [filterKeys]
    congr 1
    have : keys.zipIdx = (List.range keys.length).map fun i => (keys.getD i 0, i) := by
      apply List.ext_getElem
      · simp
      · intro i h1 h2
        simp only [List.length_zipIdx] at h1
        simp [List.getElem?_eq_getElem h1]
    rw [this, List.filter_map, List.map_map]
    have hf : ((fun p : Int × Nat => l.contains (p.2 : Int)) ∘ fun i => (keys.getD i 0, i)) =
        fun (i : Nat) => decide ((i : Int) ∈ l) := by
      funext i
      simp
    rw [hf]
    rfl
  · rw [filterKeys, if_neg (by simpa using hp)]
    exact hz _
  · rw [filterKeys]
    rw [show anyMatch (fun p n => .ok (re p n)) ps = fun n => .ok (ps.any fun p => re p n) from
      funext fun n => anyMatch_ok re ps n]
    exact hz _

/-- C56.  The rows kept appear in every column, and no others: with filter columns `fs`, no lookup and no types asked
for, the table is made of the masked rows of each column. -/
theorem C56_kept_rows {A D : Type} (env : Env) (b : Bool) (shared : List (Option Str)) (o : ConcatOpts)
    (lib : Lib A D) (search : Str → Option (Str → Bool))
    (reMatch : Str → Str → Py Bool) (args : ReadArgs D) (cells : List Cell) (hne : cells ≠ [])
    (hr : ∀ k, Resolvable env o (inlineColumn cells k) (colValues env b shared cells k)) (hv : PresentCells env b shared cells) (hs : 0 < args.lookupSize) (hh : 0 ≤ args.header.height)
    (hlk : args.lookup = .none) (hdt : args.dtypes = .none)
    (hlen : 0 < maxSpan cells - args.header.height - args.skipAfter) (names : List Str)
    (hnames : namesFor env o (colValues env b shared cells) (columnsOf cells) 0 args.header = .ok names)
    (fs : List Int) (hfs : filterKeys reMatch names (columnsOf cells) args.filters = .ok fs) (hfne : fs ≠ [])
    (t : Table A)
    (ht : readCells env lib search reMatch args (freshSeries shared b o) cells = .ok t) :
    let off := (args.header.height + args.skipAfter).toNat
    let len := (maxSpan cells - args.header.height - args.skipAfter).toNat
    ∃ m, combineFilters args.strategy (fs.map fun k =>
        presentRows env o (window (colValues env b shared cells k) off len)) = .ok m ∧ 0 < trueCount m ∧
      t = ⟨names, (columnsOf cells).map fun k =>
        lib.ofFetched (.arr (fetched env o (maskedRows (colValues env b shared cells k) off m)))⟩ := by
  intro off len
  rw [readCells_sheet env b shared o lib search reMatch args cells hne hr hv hs hh (by
    intro row hr
    rw [hlk] at hr
    injection hr with hr
    injection hr with hr
    subst hr
    simpa using hlen)] at ht
  unfold sheetTable at ht
  simp only [hlk, lookupRow, hnames, hfs, hdt, Nat.cast_zero, add_zero, sub_zero] at ht
  unfold maskFor at ht
  rw [if_neg (by simpa using hfne)] at ht
  cases hm : combineFilters args.strategy (fs.map fun k =>
      presentRows env o (window (colValues env b shared cells k) off len)) with
  | error e =>
    simp only [off, len] at hm
    simp only [hm] at ht
    exact absurd ht (by simp)
  | ok m =>
    refine ⟨m, rfl, ?_⟩
    simp only [off, len] at hm
    simp only [hm] at ht
    by_cases h0 : trueCount m = 0
    · rw [if_pos h0] at ht
      exact absurd ht (by simp)
    · rw [if_neg h0] at ht
      refine ⟨by omega, ?_⟩
      simp only [tableOf, applyDtypes, makeTable, pickRows] at ht
      split at ht
      · exact absurd ht (by simp)
      · split at ht
        · injection ht with ht
          exact ht.symm
        · exact absurd ht (by simp)

/-- C56.  A filter column has a value in a row iff there is a cell, and the cell is not a NaN of a float column. -/
theorem C56_presence (env : Env) (o : ConcatOpts) (col : List (Option Val)) :
    let cells := resolved env o col
    presentRows env o col = cells.map fun v =>
      v.isSome && !(decide (columnType o.prec cells = .f8) && decide (v = some (.f8 .nan))) := by
  intro cells
  unfold presentRows fetched materialise
  rw [List.map_map]
  apply List.map_congr_left
  intro v hv
  cases v with
  | none => rfl
  | some v =>
    cases v with
    | f8 x =>
      have hn : cells.any isNum = true := List.any_eq_true.mpr ⟨_, hv, rfl⟩
      have hts : columnType o.prec cells ≠ .ts := by
        unfold columnType
        cases cells.any isTs <;> cases cells.any isText <;> cases cells.all (wholeNum o.prec) <;> simp [hn]
      cases ht : columnType o.prec cells with
      | ts => exact absurd ht hts
      | f8 => cases x <;> rfl
      | _ => rfl
    | _ => cases columnType o.prec cells <;> rfl

def exFilter : List Cell := [nm 0 0 1, nm 0 2 5, nm 1 1 2, nm 1 2 6, nm 2 0 3, nm 2 1 4, nm 2 2 7, nm 3 2 8]

example : (exRead { filters := .positions [0, 1] } exFilter).map (·.arrays) =
      .ok [.arr ⟨.i8, [some (.i8 1), none, some (.i8 3)]⟩, .arr ⟨.i8, [none, some (.i8 2), some (.i8 4)]⟩,
        .arr ⟨.i8, [some (.i8 5), some (.i8 6), some (.i8 7)]⟩] ∧
    (exRead { filters := .positions [0, 1], strategy := .and } exFilter).map (·.arrays) =
      .ok [.arr ⟨.i8, [some (.i8 3)]⟩, .arr ⟨.i8, [some (.i8 4)]⟩, .arr ⟨.i8, [some (.i8 7)]⟩] ∧
    (exRead { filters := .positions [0, 1, 2], strategy := .ops [.or, .and] } exFilter).map (·.arrays) =
      .ok [.arr ⟨.i8, [some (.i8 1), none, some (.i8 3)]⟩, .arr ⟨.i8, [none, some (.i8 2), some (.i8 4)]⟩,
        .arr ⟨.i8, [some (.i8 5), some (.i8 6), some (.i8 7)]⟩] ∧
    (exRead { filters := .positions [0, 1], strategy := .ops [.bad] } exFilter) = .error .valueError := by
  decide +kernel

/-- Finding: a filter that selects no column is ignored; all rows are returned. -/
theorem C56_filter_without_column :
    exRead { filters := .pattern ['q'] } exFilter = exRead {} exFilter ∧
    exRead { filters := .positions [7] } exFilter = exRead {} exFilter := by
  decide +kernel

end Rxls
