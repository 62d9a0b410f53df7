import Verif.Model.ReadFile

/-! # The number of columns, and what two reads of one file share -/

namespace Rxls

theorem onColumn_count {α : Type} {f : Series → Series × Py α} {cols cols' : Cols} {k : Int} {a : α}
    (h : onColumn cols k f = .ok (cols', a)) : cols'.length = cols.length := by
  unfold onColumn at h
  split at h
  · cases h
  · split at h
    · cases h
    · cases h
      simp

theorem onColumns_count {α : Type} {f : Series → Series × Py α} : ∀ (ks : List Int) {cols cols' : Cols} {l : List α},
    onColumns f cols ks = .ok (cols', l) → cols'.length = cols.length ∧ l.length = ks.length
  | [], _, _, _, h => by
    cases h
    exact ⟨rfl, rfl⟩
  | k :: ks, cols, cols', l, h => by
    unfold onColumns at h
    split at h
    · cases h
    · rename_i h1
      split at h
      · cases h
      · rename_i h2
        cases h
        obtain ⟨e1, e2⟩ := onColumns_count ks h2
        exact ⟨e1.trans (onColumn_count h1), by simp [e2]⟩

theorem sortedKeys_count (cols : Cols) : (sortedKeys cols).length = cols.length := by
  simp [sortedKeys, List.length_insertionSort]

theorem headerLoop_count : ∀ (prev : List (Option Str)) (l : List (List (Option Str))), (headerLoop prev l).length = l.length
  | _, [] => rfl
  | prev, parts :: rest => by
    unfold headerLoop
    split
    · simp [headerLoop_count _ rest]
    · simp [headerLoop_count _ rest]

theorem headerOf_count {env : Env} {cols cols' : Cols} {row height : Int} {names : List Str} {h : HeaderArg}
    (e : headerOf env cols row h = .ok (cols', height, names)) :
    cols'.length = cols.length ∧ names.length = cols.length := by
  cases h with
  | rows n =>
    rw [headerOf] at e
    split at e
    · split at e
      · cases e
      · rename_i h1
        cases e
        unfold makeHeader at h1
        split at h1
        · split at h1
          · cases h1
          · rename_i h2
            cases h1
            obtain ⟨e1, e2⟩ := onColumns_count _ h2
            exact ⟨e1, by rw [List.length_map, e2, sortedKeys_count]⟩
        · split at h1
          · cases h1
          · rename_i h2
            cases h1
            obtain ⟨e1, e2⟩ := onColumns_count _ h2
            exact ⟨e1, by rw [headerLoop_count, e2, sortedKeys_count]⟩
    · cases e
      exact ⟨rfl, by simp⟩
  | names l =>
    rw [headerOf] at e
    split at e
    · cases e
    · rename_i h1
      cases e
      exact ⟨rfl, by simpa using h1⟩

theorem rowMask_count {env : Env} {cols cols' : Cols} {fs : List Int} {st : Strategy} {o l : Int}
    {m : Option (List Bool)} (e : rowMask env cols fs st o l = .ok (cols', m)) : cols'.length = cols.length := by
  unfold rowMask at e
  split at e
  · cases e
    rfl
  · split at e
    · cases e
    · rename_i h1
      split at e
      · cases e
      · split at e
        · cases e
        · cases e
          exact (onColumns_count _ h1).1

/-- Two reads of one file that differ in the arguments used after the cells are collected: what holds for both reads from
every list of cells holds for the reads of the file, if it holds for two equal exceptions. -/
theorem readFile_rel {A D : Type} (env : Env) (lib : Lib A D) (search : Str → Option (Str → Bool))
    (reMatch : Str → Str → Py Bool) (toInt : Str → Option Int) (a : FileArgs D) (t t' : ReadArgs D)
    (R : Py (Table A) → Py (Table A) → Prop) (he : ∀ e, R (.error e) (.error e))
    (hc : ∀ fresh cells, R (readCells env lib search reMatch t fresh cells) (readCells env lib search reMatch t' fresh cells))
    (p : Package) :
    R (readFile env lib search reMatch toInt { a with table := t } p)
      (readFile env lib search reMatch toInt { a with table := t' } p) := by
  unfold readFile
  cases fileKind p.names with
  | error e => exact he e
  | ok kind =>
    cases kind with
    | xlsx =>
      simp only [readXlsx]
      cases xlsxSheets p.xlsx.rels p.xlsx.workbook with
      | error e => exact he _
      | ok sheets =>
        simp only
        cases selectSheet sheets a.iter.sheet with
        | error e => exact he _
        | ok path =>
          simp only
          cases checkRows a.iter.skipRows a.iter.takeRows with
          | error e => exact he _
          | ok st =>
            simp only
            cases openPart (p.xlsx.parts path) with
            | error e => exact he _
            | ok doc =>
              simp only
              cases p.xlsx.formats toInt with
              | error e => exact he _
              | ok styles =>
                simp only
                split
                · exact he _
                · cases p.xlsx.strings (skipPredicate errorStringsXlsx a.nulls) with
                  | error e => exact he _
                  | ok sh => exact hc _ _
    | xlsb =>
      simp only [readXlsb]
      cases xlsbSheets p.xlsb.rels p.xlsb.workbook with
      | error e => exact he _
      | ok sheets =>
        simp only
        cases selectSheet sheets a.iter.sheet with
        | error e => exact he _
        | ok path =>
          simp only
          cases checkRows a.iter.skipRows a.iter.takeRows with
          | error e => exact he _
          | ok st =>
            simp only
            cases openPart (p.xlsb.parts path) with
            | error e => exact he _
            | ok doc =>
              simp only
              cases p.xlsb.temporal with
              | error e => exact he _
              | ok styles =>
                simp only
                cases p.xlsb.strings (skipPredicate errorStringsXlsb a.nulls) with
                | error e => exact he _
                | ok sh =>
                  simp only
                  split
                  · exact he _
                  · exact hc _ _

end Rxls
