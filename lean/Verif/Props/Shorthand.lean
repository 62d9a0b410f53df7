import Verif.Props.Retyped

/-! # C135: the short and the long form of an argument mean the same -/

namespace Rxls

/-- Two arguments for which reads from the columns agree. -/
theorem readFile_table {A D : Type} (env : Env) (lib : Lib A D) (search : Str → Option (Str → Bool))
    (reMatch : Str → Str → Py Bool) (toInt : Str → Option Int) (a : FileArgs D) (t t' : ReadArgs D)
    (h : ∀ cols, readColumns env lib search reMatch t cols = readColumns env lib search reMatch t' cols) (p : Package) :
    readFile env lib search reMatch toInt { a with table := t } p =
      readFile env lib search reMatch toInt { a with table := t' } p := by
  refine readFile_rel env lib search reMatch toInt a t t' (· = ·) (fun _ => rfl) (fun fresh cells => ?_) p
  unfold readCells
  cases collect env fresh [] cells with
  | error e => rfl
  | ok cols => exact h cols

/-- **C135**, `null_values`.  A list of values is the function that tests for being in the list; an empty list is no
argument. -/
theorem C135_nulls {A D : Type} (env : Env) (lib : Lib A D) (search : Str → Option (Str → Bool))
    (reMatch : Str → Str → Py Bool) (toInt : Str → Option Int) (a : FileArgs D) (l : List Str) (p : Package) :
    readFile env lib search reMatch toInt { a with nulls := .values l } p =
        readFile env lib search reMatch toInt { a with nulls := .pred fun s => decide (s ∈ l) } p ∧
      readFile env lib search reMatch toInt { a with nulls := .values [] } p =
        readFile env lib search reMatch toInt { a with nulls := .none } p := by
  have h1 : ∀ errors, skipPredicate errors (.values l) = skipPredicate errors (.pred fun s => decide (s ∈ l)) := by
    intro errors
    funext s
    simp [skipPredicate]
  have h2 : ∀ errors, skipPredicate errors (.values []) = skipPredicate errors .none := by
    intro errors
    funext s
    simp [skipPredicate]
  exact ⟨by simp only [readFile, h1], by simp only [readFile, h2]⟩

/-- **C135**, `datetime_formats`.  One format is a list of one; an empty list is no argument. -/
theorem C135_formats {A D : Type} (env : Env) (lib : Lib A D) (search : Str → Option (Str → Bool))
    (reMatch : Str → Str → Py Bool) (toInt : Str → Option Int) (a : FileArgs D) (s : Str) (p : Package) :
    readFile env lib search reMatch toInt { a with formats := .one s } p =
        readFile env lib search reMatch toInt { a with formats := .many [s] } p ∧
      readFile env lib search reMatch toInt { a with formats := .many [] } p =
        readFile env lib search reMatch toInt { a with formats := .none } p :=
  ⟨rfl, rfl⟩

theorem anyMatch_one (reMatch : Str → Str → Py Bool) (q : Str) : anyMatch reMatch [q] = reMatch q := by
  funext name
  unfold anyMatch
  cases reMatch q name with
  | error e => rfl
  | ok b => cases b <;> rfl

theorem keysWhere_none (reMatch : Str → Str → Py Bool) : ∀ l : List (Str × Int), keysWhere (anyMatch reMatch []) l = .ok []
  | [] => rfl
  | (n, k) :: rest => by
    have ih := keysWhere_none reMatch rest
    rw [keysWhere, ih]
    simp [anyMatch]

/-- **C135**, `row_filters`.  One pattern is a list of one; an empty text and empty lists are no argument. -/
theorem C135_filters {A D : Type} (env : Env) (lib : Lib A D) (search : Str → Option (Str → Bool))
    (reMatch : Str → Str → Py Bool) (toInt : Str → Option Int) (a : FileArgs D) (q : Str) (hq : q ≠ []) (p : Package) :
    let read := fun f => readFile env lib search reMatch toInt { a with table.filters := f } p
    read (.pattern q) = read (.patterns [q]) ∧ read (.pattern []) = read .none ∧ read (.patterns []) = read .none ∧
      read (.positions []) = read .none := by
  have key : ∀ f g, (∀ names keys, filterKeys reMatch names keys f = filterKeys reMatch names keys g) →
      readFile env lib search reMatch toInt { a with table.filters := f } p =
        readFile env lib search reMatch toInt { a with table.filters := g } p := by
    intro f g h
    apply readFile_table env lib search reMatch toInt a { a.table with filters := f } { a.table with filters := g }
    intro cols
    simp only [readColumns, h]
  refine ⟨key _ _ fun names keys => ?_, key _ _ fun names keys => rfl, key _ _ fun names keys => ?_,
    key _ _ fun names keys => ?_⟩
  · simp only [filterKeys, anyMatch_one]
    rw [if_neg (by simpa using hq)]
  · simp only [filterKeys, keysWhere_none]
  · simp [filterKeys]

/-- The operator of a whole list, as a strategy. -/
def RowOp.everywhere : RowOp → Strategy
  | .and => .and
  | .or => .or
  | .bad => .bad

theorem zip_replicate_map {α : Type} (x : RowOp) : ∀ bs : List α, (List.replicate bs.length x).zip bs = bs.map fun b => (x, b)
  | [] => rfl
  | b :: bs => by simp [List.replicate_succ, zip_replicate_map x bs]

theorem combine_everywhere (o : RowOp) (k : Nat) (bs : List (List Bool)) (m : List Bool)
    (h : combineFilters (.ops (List.replicate k o)) bs = .ok m) : combineFilters o.everywhere bs = .ok m := by
  match bs, h with
  | [], h => cases h
  | [b], h => exact h
  | b :: c :: rest, h =>
    simp only [combineFilters] at h
    split at h
    · cases h
    · rename_i hk
      split at h
      · cases h
      · rename_i hb
        have hk' : k = (c :: rest).length := by simpa using hk
        rw [hk', zip_replicate_map] at h
        cases o with
        | and => exact h
        | or => exact h
        | bad =>
          exfalso
          apply hb
          rw [hk']
          simp [List.replicate_succ]

theorem rowMask_everywhere (env : Env) (cols : Cols) (fs : List Int) (o : RowOp) (k : Nat) (off len : Int) (r)
    (h : rowMask env cols fs (.ops (List.replicate k o)) off len = .ok r) :
    rowMask env cols fs o.everywhere off len = .ok r := by
  unfold rowMask at h ⊢
  split at h
  · rw [if_pos (by assumption)]
    exact h
  · rw [if_neg (by assumption)]
    split at h
    · cases h
    · rename_i h1
      split at h
      · cases h
      · rename_i h2
        rw [combine_everywhere o k _ _ h2]
        exact h

/-- **C135**, `row_filters_strategy`.  A list that repeats one operator, if it is accepted, is this operator. -/
theorem C135_strategy {A D : Type} (env : Env) (lib : Lib A D) (search : Str → Option (Str → Bool))
    (reMatch : Str → Str → Py Bool) (toInt : Str → Option Int) (a : FileArgs D) (o : RowOp) (k : Nat) (p : Package)
    (T : Table A)
    (h : readFile env lib search reMatch toInt { a with table.strategy := .ops (List.replicate k o) } p = .ok T) :
    readFile env lib search reMatch toInt { a with table.strategy := o.everywhere } p = .ok T := by
  refine readFile_rel env lib search reMatch toInt a { a.table with strategy := .ops (List.replicate k o) }
    { a.table with strategy := o.everywhere } (fun x y => x = .ok T → y = .ok T) (fun e h => h) (fun fresh cells => ?_) p h
  unfold readCells
  cases collect env fresh [] cells with
  | error e => exact id
  | ok cols =>
    intro h
    simp only [readColumns] at h ⊢
    cases h1 : maxLen cols with
    | error e => simp [h1] at h
    | ok m =>
      simp only [h1] at h ⊢
      cases h2 : findHeader env search cols a.table.lookupSize a.table.lookup with
      | error e => simp [h2] at h
      | ok x =>
        simp only [h2] at h ⊢
        split at h
        · cases h
        · rename_i hr
          rw [if_neg hr]
          cases h3 : headerOf env x.1 x.2 a.table.header with
          | error e => simp [h3] at h
          | ok y =>
            simp only [h3] at h ⊢
            cases h4 : filterKeys reMatch y.2.2 (sortedKeys y.1) a.table.filters with
            | error e => simp [h4] at h
            | ok fs =>
              simp only [h4] at h ⊢
              cases h5 : rowMask env y.1 fs (.ops (List.replicate k o)) (y.2.1 + x.2 + a.table.skipAfter)
                  (m - x.2 - y.2.1 - a.table.skipAfter) with
              | error e => simp [h5] at h
              | ok z =>
                rw [rowMask_everywhere env _ _ _ _ _ _ _ h5]
                simpa only [h5] using h

theorem readFile_square {A D : Type} (env : Env) (lib : Lib A D) (search : Str → Option (Str → Bool))
    (reMatch : Str → Str → Py Bool) (toInt : Str → Option Int) (a : FileArgs D) (p : Package) (T : Table A)
    (h : readFile env lib search reMatch toInt a p = .ok T) : T.names.length = T.arrays.length := by
  refine readFile_rel env lib search reMatch toInt a a.table a.table
    (fun x _ => x = .ok T → T.names.length = T.arrays.length) (fun e h => by cases h) (fun fresh cells h => ?_) p h
  unfold readCells at h
  split at h
  · cases h
  · obtain ⟨cols1, row, cols2, hh, names, arrays, h1, h2, h3⟩ := readColumns_inv h
    obtain ⟨rfl, h4, _⟩ := makeTable_inv h3
    exact h4

/-- Two arguments that ask for the same type for every column of a table. -/
theorem retypes_same {A D : Type} {lib : Lib A D} {arg arg' : DtypesArg D} {x y y' : Py (Table A)} {T : Table A}
    (hx : ∀ T0, x = .ok T0 → T0.names.length = T0.arrays.length) (h : Retypes lib arg x y) (h' : Retypes lib arg' x y')
    (hy : y = .ok T) (hs : ∀ l, arg' = .sequence l → l.length = T.names.length)
    (hw : ∀ j, j < T.names.length → wantedType T.names j arg' = wantedType T.names j arg) : y' = .ok T := by
  subst hy
  cases x with
  | error e => exact h.elim
  | ok T0 =>
    obtain ⟨n1, n2, n3, n4⟩ := h
    have hl := hx T0 rfl
    rw [n1] at hw hs
    cases y' with
    | error e =>
      obtain ⟨_, ⟨l, hl1, hl2⟩ | ⟨j, hj, hn⟩⟩ := h'
      · exact absurd (hs l hl1) hl2
      · rw [hw j (by omega), n4 j hj, List.getElem?_eq_getElem (by omega)] at hn
        cases hn
    | ok T' =>
      obtain ⟨m1, m2, m3, m4⟩ := h'
      have ha : T'.arrays = T.arrays := by
        apply List.ext_getElem?
        intro j
        by_cases hj : j < T0.arrays.length
        · rw [← m4 j hj, ← n4 j hj, hw j (by omega)]
        · rw [List.getElem?_eq_none (by omega), List.getElem?_eq_none (by omega)]
      cases T
      cases T'
      simp_all

theorem find_everywhere {D : Type} (d : D) (n : Str) : ∀ l : List Str, n ∈ l →
    ((l.map fun x => (x, d)).find? fun q => q.1 = n).map (·.2) = some d
  | [], hm => by cases hm
  | q :: qs, hm => by
    rw [List.map_cons, List.find?_cons]
    by_cases hq : q = n
    · simp [hq]
    · simp only [hq, decide_false]
      exact find_everywhere d n qs (by simpa [Ne.symm hq] using hm)

/-- **C135**, `dtypes`.  One type is a list that repeats it for every column, and a mapping from every name to it. -/
theorem C135_dtypes {A D : Type} (env : Env) (lib : Lib A D) (hk : lib.Lawful) (search : Str → Option (Str → Bool))
    (reMatch : Str → Str → Py Bool) (toInt : Str → Option Int) (a : FileArgs D) (d : D) (p : Package) (T : Table A)
    (h : readFile env lib search reMatch toInt { a with table.dtypes := .single d } p = .ok T) :
    readFile env lib search reMatch toInt { a with table.dtypes := .sequence (List.replicate T.names.length d) } p = .ok T ∧
      readFile env lib search reMatch toInt { a with table.dtypes := .mapping (T.names.map fun n => (n, d)) } p = .ok T := by
  have h0 := C134_dtypes env lib hk search reMatch toInt a (.single d) p
  refine ⟨retypes_same (fun T0 => readFile_square env lib search reMatch toInt _ p T0) h0
      (C134_dtypes env lib hk search reMatch toInt a _ p) h ?_ ?_,
    retypes_same (fun T0 => readFile_square env lib search reMatch toInt _ p T0) h0
      (C134_dtypes env lib hk search reMatch toInt a _ p) h ?_ ?_⟩
  · intro l hl
    cases hl
    simp
  · intro j hj
    simp [wantedType, hj]
  · intro l hl
    cases hl
  · intro j hj
    simp only [wantedType, List.getElem?_eq_getElem hj, Option.bind_some]
    exact find_everywhere d _ _ (List.getElem_mem hj)

/-! ## Examples -/

/-- One type, the list and the mapping; one pattern, the list of it, and no pattern; two filters joined by "and". -/
example : exRetypedRead (.single .utf8) = exRetypedRead (.sequence [.utf8, .utf8]) ∧
    exRetypedRead (.single .utf8) = exRetypedRead (.mapping [(['p'], .utf8), (['q'], .utf8)]) ∧
    exRetypedRead (.single .utf8) = .ok ⟨[['p'], ['q']],
      [.arr ⟨.utf8, [some (.str ['1']), some (.str ['2'])]⟩, .arr ⟨.utf8, [none, none]⟩]⟩ ∧
    combineFilters (.ops [.and, .and]) [[true, true, false], [true, false, true], [true, true, true]] =
      .ok [true, false, false] ∧
    combineFilters .and [[true, true, false], [true, false, true], [true, true, true]] = .ok [true, false, false] := by
  decide +kernel

end Rxls
