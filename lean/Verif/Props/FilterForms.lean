import Verif.Props.Shorthand

/-! # C137: filters by name and by position -/

namespace Rxls

theorem anyMatch_true {reMatch : Str → Str → Py Bool} {name : Str} : ∀ {qs : List Str} {b : Bool},
    anyMatch reMatch qs name = .ok b → (b = true ↔ ∃ q ∈ qs, reMatch q name = .ok true)
  | [], b, h => by
    cases h
    simp
  | q :: qs, b, h => by
    unfold anyMatch at h
    split at h
    · cases h
    · rename_i h1
      cases h
      simp [h1]
    · rename_i h1
      rw [anyMatch_true h]
      simp [h1]

/-- The columns whose names pass a test are the ones at the positions of these names. -/
theorem keysWhere_positions {test : Str → Py Bool} (sel : Nat → Bool) : ∀ (names : List Str) (keys : List Int) (i : Nat) (fs : List Int),
    names.length = keys.length → keysWhere test (names.zip keys) = .ok fs →
    (∀ j, (hj : j < names.length) → (test names[j] = .ok true ↔ sel (i + j) = true)) →
    fs = ((keys.zipIdx i).filter fun p => sel p.2).map (·.1)
  | [], [], _, fs, _, h, _ => by
    cases h
    rfl
  | n :: names, k :: keys, i, fs, hl, h, hs => by
    rw [List.zip_cons_cons, keysWhere] at h
    split at h
    · cases h
    · rename_i b hb
      split at h
      · cases h
      · rename_i ks hks
        cases h
        have ih := keysWhere_positions sel names keys (i + 1) ks (by simpa using hl) hks (by
          intro j hj
          have := hs (j + 1) (by simpa using hj)
          simpa [Nat.add_assoc, Nat.add_comm 1 j] using this)
        have h0 := hs 0 (by simp)
        simp only [List.getElem_cons_zero, hb, Nat.add_zero] at h0
        rw [List.zipIdx_cons, List.filter_cons]
        cases b with
        | true => simp [h0.mp rfl, ih]
        | false =>
          have : sel i = false := by
            cases hsel : sel i with
            | false => rfl
            | true => simp [hsel] at h0
          simp [this, ih]
  | [], _ :: _, _, _, hl, _, _ => by cases hl
  | _ :: _, [], _, _, hl, _, _ => by cases hl

/-- All names have been tested. -/
theorem keysWhere_tested {test : Str → Py Bool} : ∀ (names : List Str) (keys : List Int) (fs : List Int),
    names.length = keys.length → keysWhere test (names.zip keys) = .ok fs →
    ∀ j, (hj : j < names.length) → ∃ b, test names[j] = .ok b
  | [], _, _, _, _, j, hj => by simp at hj
  | n :: names, k :: keys, fs, hl, h, j, hj => by
    rw [List.zip_cons_cons, keysWhere] at h
    split at h
    · cases h
    · rename_i b hb
      split at h
      · cases h
      · rename_i ks hks
        cases j with
        | zero => exact ⟨b, hb⟩
        | succ j => exact keysWhere_tested names keys ks (by simpa using hl) hks j (by simpa using hj)
  | _ :: _, [], _, hl, _, _, _ => by cases hl

/-- Filters that pick the same columns by name and by position. -/
theorem C137_columns {A D : Type} (env : Env) (lib : Lib A D) (search : Str → Option (Str → Bool))
    (reMatch : Str → Str → Py Bool) (args : ReadArgs D) (qs : List Str) (l : List Int) (cols : Cols) (T : Table A)
    (h : readColumns env lib search reMatch { args with filters := .patterns qs } cols = .ok T)
    (hl : ∀ j, (hj : j < T.names.length) → ((j : Int) ∈ l ↔ ∃ q ∈ qs, reMatch q T.names[j] = .ok true)) :
    readColumns env lib search reMatch { args with filters := .positions l } cols = .ok T := by
  simp only [readColumns] at h ⊢
  cases h1 : maxLen cols with
  | error e => simp [h1] at h
  | ok m =>
    simp only [h1] at h ⊢
    cases h2 : findHeader env search cols args.lookupSize args.lookup with
    | error e => simp [h2] at h
    | ok x =>
      simp only [h2] at h ⊢
      split at h
      · cases h
      · rename_i hr
        rw [if_neg hr]
        cases h3 : headerOf env x.1 x.2 args.header with
        | error e => simp [h3] at h
        | ok y =>
          simp only [h3] at h ⊢
          cases h4 : filterKeys reMatch y.2.2 (sortedKeys y.1) (.patterns qs) with
          | error e => simp [h4] at h
          | ok fs =>
            simp only [h4] at h
            have hn : T.names = y.2.2 := by
              split at h
              · cases h
              · split at h
                · cases h
                · split at h
                  · cases h
                  · obtain ⟨rfl, _⟩ := makeTable_inv h
                    rfl
            rw [hn] at hl
            have hc := headerOf_count (cols' := y.1) (height := y.2.1) (names := y.2.2) h3
            have hlen : y.2.2.length = (sortedKeys y.1).length := by rw [sortedKeys_count, hc.1, hc.2]
            rw [filterKeys] at h4
            have hfs := keysWhere_positions (fun j => l.contains (j : Int)) _ _ 0 fs hlen h4 (by
              intro j hj
              rw [Nat.zero_add, List.contains_iff_mem, hl j hj]
              obtain ⟨b, hb⟩ : ∃ b, anyMatch reMatch qs y.2.2[j] = .ok b := 
                keysWhere_tested _ _ fs hlen h4 j hj
              rw [hb, ← anyMatch_true hb]
              simp)
            have : filterKeys reMatch y.2.2 (sortedKeys y.1) (.positions l) = .ok fs := by rw [filterKeys, hfs]
            simpa only [this] using h

/-- Lists with the same positions of columns. -/
theorem C137_set_columns {A D : Type} (env : Env) (lib : Lib A D) (search : Str → Option (Str → Bool))
    (reMatch : Str → Str → Py Bool) (args : ReadArgs D) (l l' : List Int) (cols : Cols) (T : Table A)
    (h : readColumns env lib search reMatch { args with filters := .positions l } cols = .ok T)
    (hl : ∀ j, j < T.names.length → ((j : Int) ∈ l ↔ (j : Int) ∈ l')) :
    readColumns env lib search reMatch { args with filters := .positions l' } cols = .ok T := by
  simp only [readColumns] at h ⊢
  cases h1 : maxLen cols with
  | error e => simp [h1] at h
  | ok m =>
    simp only [h1] at h ⊢
    cases h2 : findHeader env search cols args.lookupSize args.lookup with
    | error e => simp [h2] at h
    | ok x =>
      simp only [h2] at h ⊢
      split at h
      · cases h
      · rename_i hr
        rw [if_neg hr]
        cases h3 : headerOf env x.1 x.2 args.header with
        | error e => simp [h3] at h
        | ok y =>
          simp only [h3] at h ⊢
          cases h4 : filterKeys reMatch y.2.2 (sortedKeys y.1) (.positions l) with
          | error e => simp [h4] at h
          | ok fs =>
            simp only [h4] at h
            have hn : T.names = y.2.2 := by
              split at h
              · cases h
              · split at h
                · cases h
                · split at h
                  · cases h
                  · obtain ⟨rfl, _⟩ := makeTable_inv h
                    rfl
            rw [hn] at hl
            have hc := headerOf_count (cols' := y.1) (height := y.2.1) (names := y.2.2) h3
            have hlen : y.2.2.length = (sortedKeys y.1).length := by rw [sortedKeys_count, hc.1, hc.2]
            have : filterKeys reMatch y.2.2 (sortedKeys y.1) (.positions l') = .ok fs := by
              rw [← h4, filterKeys, filterKeys]
              congr 2
              apply List.filter_congr
              rintro ⟨k, j⟩ hj
              obtain ⟨h5, _⟩ := List.mem_zipIdx' hj
              rw [Bool.eq_iff_iff, List.contains_iff_mem, List.contains_iff_mem]
              exact (hl j (by omega)).symm
            simpa only [this] using h

/-- **C137**.  If a file is read with filters by pattern, it is read in the same way with filters by position, for the
positions at which the names of the table match a pattern. -/
theorem C137_positions {A D : Type} (env : Env) (lib : Lib A D) (search : Str → Option (Str → Bool))
    (reMatch : Str → Str → Py Bool) (toInt : Str → Option Int) (a : FileArgs D) (qs : List Str) (l : List Int) (p : Package)
    (T : Table A) (h : readFile env lib search reMatch toInt { a with table.filters := .patterns qs } p = .ok T)
    (hl : ∀ j, (hj : j < T.names.length) → ((j : Int) ∈ l ↔ ∃ q ∈ qs, reMatch q T.names[j] = .ok true)) :
    readFile env lib search reMatch toInt { a with table.filters := .positions l } p = .ok T := by
  refine readFile_rel env lib search reMatch toInt a { a.table with filters := .patterns qs }
    { a.table with filters := .positions l } (fun x y => x = .ok T → y = .ok T) (fun e h => h) (fun fresh cells => ?_) p h
  unfold readCells
  cases collect env fresh [] cells with
  | error e => exact id
  | ok cols =>
    intro h
    exact C137_columns env lib search reMatch a.table qs l cols T h hl

/-- **C137**.  Neither the order of the positions, nor repetitions, nor positions without a column count. -/
theorem C137_set {A D : Type} (env : Env) (lib : Lib A D) (search : Str → Option (Str → Bool))
    (reMatch : Str → Str → Py Bool) (toInt : Str → Option Int) (a : FileArgs D) (l l' : List Int) (p : Package)
    (T : Table A) (h : readFile env lib search reMatch toInt { a with table.filters := .positions l } p = .ok T)
    (hl : ∀ j, j < T.names.length → ((j : Int) ∈ l ↔ (j : Int) ∈ l')) :
    readFile env lib search reMatch toInt { a with table.filters := .positions l' } p = .ok T := by
  refine readFile_rel env lib search reMatch toInt a { a.table with filters := .positions l }
    { a.table with filters := .positions l' } (fun x y => x = .ok T → y = .ok T) (fun e h => h) (fun fresh cells => ?_) p h
  unfold readCells
  cases collect env fresh [] cells with
  | error e => exact id
  | ok cols =>
    intro h
    exact C137_set_columns env lib search reMatch a.table l l' cols T h hl

/-! ## Examples -/

/-- What `read` gives for the sheet of C129 with these filters; "^q" and the like match names that begin so. -/
def exFilterRead (filters : RowFilters) : Py (Table Fetched) :=
  let sheet : XSheet := ⟨[], exNullGrid.map fun row => ⟨[], row.map TCell.xml⟩, []⟩
  readFile textEnv exLib (fun _ => none) (fun q s => .ok (q.isPrefixOf s)) exInt
    { nulls := .values [['-']], table := { header := .names [['p', '1'], ['q', '1']], filters := filters } }
    ⟨[workbookXml], { exXlsxFile with parts := fun _ => some ⟨sheet.events, false⟩ }, exFile⟩

/-- The second column by its name, by its position, and by a list with the position twice and a position without column. -/
example : exFilterRead (.patterns [['x'], ['q']]) =
      .ok ⟨[['p', '1'], ['q', '1']], [.arr ⟨.utf8, [none]⟩, .arr ⟨.utf8, [some (.str ['y'])]⟩]⟩ ∧
    exFilterRead (.positions [1]) = exFilterRead (.patterns [['x'], ['q']]) ∧
    exFilterRead (.positions [7, 1, 1]) = exFilterRead (.positions [1]) := by decide +kernel

end Rxls
