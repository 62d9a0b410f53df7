import Verif.Spec.Renamed
import Verif.Props.NullValues

/-! # C133: a list of names names the columns and changes nothing else -/

namespace Rxls

theorem filterKeys_names {D : Type} {args : ReadArgs D} (ha : args.ByPosition) (reMatch : Str → Str → Py Bool)
    (l l' : List Str) (keys : List Int) :
    filterKeys reMatch l keys args.filters = filterKeys reMatch l' keys args.filters := by
  cases h : args.filters with
  | pattern p => exact absurd h (ha.pattern p)
  | patterns p => exact absurd h (ha.patterns p)
  | _ => rfl

theorem applyDtypes_names {A D : Type} {args : ReadArgs D} (ha : args.ByPosition) (lib : Lib A D) {l l' : List Str}
    (hl : l.length = l'.length) (as : List A) : applyDtypes lib l as args.dtypes = applyDtypes lib l' as args.dtypes := by
  cases h : args.dtypes with
  | mapping p => exact absurd h (ha.dtypes p)
  | sequence q => simp only [applyDtypes, hl]
  | _ => rfl

/-- A list of names, from the columns on. -/
theorem C133_columns {A D : Type} (env : Env) (lib : Lib A D) (search : Str → Option (Str → Bool))
    (reMatch : Str → Str → Py Bool) (args : ReadArgs D) (ha : args.ByPosition) (l : List Str) (cols : Cols) :
    Renames l (readColumns env lib search reMatch { args with header := .rows 0 } cols)
      (readColumns env lib search reMatch { args with header := .names l } cols) := by
  unfold readColumns
  simp only
  cases maxLen cols with
  | error e => exact ⟨e, rfl⟩
  | ok m =>
    simp only
    cases findHeader env search cols args.lookupSize args.lookup with
    | error e => exact ⟨e, rfl⟩
    | ok x =>
      obtain ⟨cs, row⟩ := x
      simp only
      by_cases hr : row = -1
      · rw [if_pos hr, if_pos hr]
        exact ⟨_, rfl⟩
      rw [if_neg hr, if_neg hr]
      simp only [headerOf, ne_eq, not_true_eq_false, if_false]
      let names : List Str := (List.range cs.length).map fun i => unnamedDot ++ pyStr i
      have hn : names.length = cs.length := by simp [names]
      by_cases hl : l.length = cs.length
      · have hln : l.length = names.length := by rw [hl, hn]
        simp only [hl, not_true_eq_false, if_false]
        rw [filterKeys_names ha reMatch l names]
        cases filterKeys reMatch names (sortedKeys cs) args.filters with
        | error e => exact ⟨e, rfl⟩
        | ok fs =>
          simp only
          cases rowMask env cs fs args.strategy (0 + row + args.skipAfter) (m - row - 0 - args.skipAfter) with
          | error e => exact ⟨e, rfl⟩
          | ok y =>
            obtain ⟨cs', mask⟩ := y
            simp only
            cases onColumns (fetchWith env (0 + row + args.skipAfter) (m - row - 0 - args.skipAfter) mask) cs' (sortedKeys cs') with
            | error e => exact ⟨e, rfl⟩
            | ok z =>
              obtain ⟨_, fetched⟩ := z
              simp only
              rw [applyDtypes_names ha lib hln]
              change Renames l (match applyDtypes lib names (fetched.map lib.ofFetched) args.dtypes with
                | .error e => .error e | .ok arrays => makeTable lib names arrays) _
              cases applyDtypes lib names (fetched.map lib.ofFetched) args.dtypes with
              | error e => exact ⟨e, rfl⟩
              | ok arrays =>
                simp only [makeTable, hln]
                by_cases h1 : names.length ≠ arrays.length
                · rw [if_pos h1, if_pos h1]
                  exact ⟨_, rfl⟩
                rw [if_neg h1, if_neg h1]
                split
                · simp only [Renames, hln, if_true]
                · exact ⟨_, rfl⟩
      · simp only [hl, not_false_eq_true, if_true]
        change Renames l (match filterKeys reMatch names (sortedKeys cs) args.filters with
          | .error e => .error e
          | .ok filters =>
            match rowMask env cs filters args.strategy (0 + row + args.skipAfter) (m - row - 0 - args.skipAfter) with
            | .error e => .error e
            | .ok (cols, mask) =>
              match onColumns (fetchWith env (0 + row + args.skipAfter) (m - row - 0 - args.skipAfter) mask) cols (sortedKeys cols) with
              | .error e => .error e
              | .ok (_, fetched) =>
                match applyDtypes lib names (fetched.map lib.ofFetched) args.dtypes with
                | .error e => .error e
                | .ok arrays => makeTable lib names arrays) _
        have key : ∀ x : Py (Table A), (∀ T, x = .ok T → T.names = names) → Renames l x (.error .valueError) := by
          intro x hx
          cases x with
          | error e => exact ⟨_, rfl⟩
          | ok T =>
            simp only [Renames]
            rw [if_neg]
            rw [hx T rfl, hn]
            exact hl
        apply key
        intro T hT
        split at hT
        · cases hT
        · split at hT
          · cases hT
          · split at hT
            · cases hT
            · split at hT
              · cases hT
              · unfold makeTable at hT
                split at hT
                · cases hT
                · split at hT
                  · cases hT
                    rfl
                  · cases hT

theorem C133_cells {A D : Type} (env : Env) (lib : Lib A D) (search : Str → Option (Str → Bool))
    (reMatch : Str → Str → Py Bool) (args : ReadArgs D) (ha : args.ByPosition) (l : List Str) (fresh : Series)
    (cells : List Cell) :
    Renames l (readCells env lib search reMatch { args with header := .rows 0 } fresh cells)
      (readCells env lib search reMatch { args with header := .names l } fresh cells) := by
  unfold readCells
  cases collect env fresh [] cells with
  | error e => exact ⟨e, rfl⟩
  | ok cols => exact C133_columns env lib search reMatch args ha l cols

/-- **C133**.  With a list of names, a file is read as without a header, under these names; if their number is not that of
the columns, the read is a ValueError.  This holds for every file. -/
theorem C133_names {A D : Type} (env : Env) (lib : Lib A D) (search : Str → Option (Str → Bool))
    (reMatch : Str → Str → Py Bool) (toInt : Str → Option Int) (a : FileArgs D) (ha : a.table.ByPosition) (l : List Str)
    (p : Package) :
    Renames l (readFile env lib search reMatch toInt { a with table.header := .rows 0 } p)
      (readFile env lib search reMatch toInt { a with table.header := .names l } p) := by
  unfold readFile
  cases fileKind p.names with
  | error e => exact ⟨e, rfl⟩
  | ok kind =>
    cases kind with
    | xlsx =>
      simp only [readXlsx]
      cases xlsxSheets p.xlsx.rels p.xlsx.workbook with
      | error e => exact ⟨_, rfl⟩
      | ok sheets =>
        simp only
        cases selectSheet sheets a.iter.sheet with
        | error e => exact ⟨_, rfl⟩
        | ok path =>
          simp only
          cases checkRows a.iter.skipRows a.iter.takeRows with
          | error e => exact ⟨_, rfl⟩
          | ok st =>
            simp only
            cases openPart (p.xlsx.parts path) with
            | error e => exact ⟨_, rfl⟩
            | ok doc =>
              simp only
              cases p.xlsx.formats toInt with
              | error e => exact ⟨_, rfl⟩
              | ok styles =>
                simp only
                split
                · exact ⟨_, rfl⟩
                · cases p.xlsx.strings (skipPredicate errorStringsXlsx a.nulls) with
                  | error e => exact ⟨_, rfl⟩
                  | ok sh => exact C133_cells env lib search reMatch a.table ha l _ _
    | xlsb =>
      simp only [readXlsb]
      cases xlsbSheets p.xlsb.rels p.xlsb.workbook with
      | error e => exact ⟨_, rfl⟩
      | ok sheets =>
        simp only
        cases selectSheet sheets a.iter.sheet with
        | error e => exact ⟨_, rfl⟩
        | ok path =>
          simp only
          cases checkRows a.iter.skipRows a.iter.takeRows with
          | error e => exact ⟨_, rfl⟩
          | ok st =>
            simp only
            cases openPart (p.xlsb.parts path) with
            | error e => exact ⟨_, rfl⟩
            | ok doc =>
              simp only
              cases p.xlsb.temporal with
              | error e => exact ⟨_, rfl⟩
              | ok styles =>
                simp only
                cases p.xlsb.strings (skipPredicate errorStringsXlsb a.nulls) with
                | error e => exact ⟨_, rfl⟩
                | ok sh =>
                  simp only
                  split
                  · exact ⟨_, rfl⟩
                  · exact C133_cells env lib search reMatch a.table ha l _ _

/-! ## Examples -/

/-- What `read` gives for the sheet of C129 with this header. -/
def exNamedRead (header : HeaderArg) : Py (Table Fetched) :=
  let sheet : XSheet := ⟨[], exNullGrid.map fun row => ⟨[], row.map TCell.xml⟩, []⟩
  readFile textEnv exLib (fun _ => none) (fun _ _ => .ok false) exInt
    { nulls := .values [['-']], table := { header := header, filters := .positions [0], dtypes := .none } }
    ⟨[workbookXml], { exXlsxFile with parts := fun _ => some ⟨sheet.events, false⟩ }, exFile⟩

/-- No header, a list of two names, a list of three; the row without a value in column A is filtered out. -/
example : exNamedRead (.rows 0) = .ok ⟨[unnamedDot ++ ['0'], unnamedDot ++ ['1']],
      [.arr ⟨.i8, [some (.i8 1), some (.i8 2)]⟩, .arr ⟨.utf8, [none, none]⟩]⟩ ∧
    exNamedRead (.names [['a'], ['a']]) = .ok ⟨[['a'], ['a']],
      [.arr ⟨.i8, [some (.i8 1), some (.i8 2)]⟩, .arr ⟨.utf8, [none, none]⟩]⟩ ∧
    exNamedRead (.names [['a'], ['b'], ['c']]) = .error .valueError := by decide +kernel

end Rxls
