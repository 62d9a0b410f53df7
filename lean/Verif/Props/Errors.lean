import Verif.Spec.Errors
import Verif.Props.ReadFile

/-! # Property C107: error values are empty cells -/

namespace Rxls

theorem errorNames_sub : ∀ s ∈ errorNames, s ∈ errorTexts := by decide +kernel

theorem isError_items (styles : List (Str × Nat)) (isNull : Str → Bool) (hn : ∀ s ∈ errorNames, isNull s = true)
    (cols : List Int) (c : XCell) (h : c.isError = true) : c.items styles isNull cols = [] := by
  unfold XCell.isError at h
  simp only [Bool.and_eq_true, List.all_eq_true, decide_eq_true_eq] at h
  unfold XCell.items
  rw [List.map_eq_nil_iff, List.filter_eq_nil_iff]
  intro t ht
  obtain ⟨s, hs, rfl⟩ := List.mem_map.1 ht
  rcases h.2 s hs with h' | h'
  · simp [h']
  · simp [hn _ h']

theorem withoutErrors_items (styles : List (Str × Nat)) (isNull : Str → Bool) (hn : ∀ s ∈ errorNames, isNull s = true)
    (cols : List Int) (r : XRow) :
    XRow.items styles isNull cols { r with cells := r.cells.filter fun c => !c.isError } = r.items styles isNull cols := by
  obtain ⟨a, cells⟩ := r
  simp only [XRow.items]
  induction cells with
  | nil => rfl
  | cons c cells ih =>
    by_cases h : c.isError = true
    · simp [h, ih, isError_items styles isNull hn cols c h]
    · simp [h, ih]

theorem withoutErrors_ok {s : XSheet} (h : s.Ok) : s.withoutErrors.Ok where
  pre := h.pre
  post := h.post
  body := by
    intro r hr c hc
    obtain ⟨r0, hr0, rfl⟩ := List.mem_map.1 hr
    exact h.body r0 hr0 c (List.mem_filter.1 hc).1
  ref := by
    intro r hr c hc
    obtain ⟨r0, hr0, rfl⟩ := List.mem_map.1 hr
    exact h.ref r0 hr0 c (List.mem_filter.1 hc).1

theorem xlsxSheet_loses (styles : List (Str × Nat)) (isNull : Str → Bool) (hn : ∀ s ∈ errorNames, isNull s = true)
    (o : SheetArgs) {d d' : XmlDoc} (h : d.LosesErrors d') : xlsxSheet styles isNull o d = xlsxSheet styles isNull o d' := by
  rcases h with rfl | ⟨s, bad, hs, rfl, rfl⟩
  · rfl
  · rw [sheet_rows s hs, sheet_rows _ (withoutErrors_ok hs)]
    have : s.withoutErrors.rows.map (XRow.items styles isNull o.skipCols) = s.rows.map (XRow.items styles isNull o.skipCols) := by
      simp only [XSheet.withoutErrors, List.map_map]
      exact List.map_congr_left fun r _ => withoutErrors_items styles isNull hn o.skipCols r
    rw [this]

/-- C107.  Taking the error cells out of the sheets of an XLSX file does not change what `read` gives, whatever its
arguments. -/
theorem C107_xlsx {A D : Type} (env : Env) (lib : Lib A D) (search : Str → Option (Str → Bool))
    (reMatch : Str → Str → Py Bool) (toInt : Str → Option Int) (a : FileArgs D) (p : Package) (hp : workbookXml ∈ p.names)
    (parts : Str → Option XmlDoc) (h : ∀ n, Option.Rel XmlDoc.LosesErrors (p.xlsx.parts n) (parts n)) :
    readFile env lib search reMatch toInt a { p with xlsx := { p.xlsx with parts := parts } } =
      readFile env lib search reMatch toInt a p := by
  have hf : fileKind p.names = .ok .xlsx := by simp [fileKind, hp]
  unfold readFile
  simp only [hf]
  have hn : ∀ s ∈ errorNames, skipPredicate errorStringsXlsx a.nulls s = true := by
    intro s hs
    rw [skip_xlsx]
    simp [errorNames_sub s hs]
  unfold readXlsx
  simp only [XlsxFile.formats, XlsxFile.strings]
  split
  · rfl
  split
  · rfl
  split
  · rfl
  rename_i path _ _ _ _ _
  have hpath := h path
  cases hd : p.xlsx.parts path with
  | none =>
    rw [hd] at hpath
    generalize parts path = q at hpath ⊢
    cases hpath
    rfl
  | some d =>
    rw [hd] at hpath
    generalize parts path = q at hpath ⊢
    cases hpath with
    | some hl => simp only [openPart, xlsxSheet_loses _ _ hn _ hl]

theorem scan_loses {b b' : Bytes} (h : LosesErrorRecords b b') : scanBiff (some sheetIds) b' = scanBiff (some sheetIds) b := by
  rcases h with rfl | ⟨rs, h1, h2⟩
  · rfl
  · rw [scan_part h1 rfl, scan_part h2 rfl, List.filter_filter]
    apply List.filter_congr
    intro r _
    by_cases hm : r.recId ∈ sheetIds
    · have : r.isError = false := by
        have h3 : r.recId ≠ 3 := fun e => by rw [e] at hm; revert hm; decide
        have h11 : r.recId ≠ 11 := fun e => by rw [e] at hm; revert hm; decide
        simp [Record.isError, h3, h11]
      simp [hm, this]
    · simp [hm]

/-- C107.  The same for XLSB. -/
theorem C107_xlsb {A D : Type} (env : Env) (lib : Lib A D) (search : Str → Option (Str → Bool))
    (reMatch : Str → Str → Py Bool) (toInt : Str → Option Int) (a : FileArgs D) (p : Package)
    (hp : workbookXml ∉ p.names) (parts : Str → Option Bytes)
    (h : ∀ n, Option.Rel LosesErrorRecords (p.xlsb.parts n) (parts n)) :
    readFile env lib search reMatch toInt a { p with xlsb := { p.xlsb with parts := parts } } =
      readFile env lib search reMatch toInt a p := by
  unfold readFile
  simp only
  split
  · rfl
  · rename_i hk
    exact absurd hk (by simp only [fileKind, List.contains_eq_mem]; grind)
  unfold readXlsb
  simp only [XlsbFile.temporal, XlsbFile.strings]
  split
  · rfl
  split
  · rfl
  split
  · rfl
  rename_i path _ _ _ _ _
  have hpath := h path
  cases hd : p.xlsb.parts path with
  | none =>
    rw [hd] at hpath
    generalize parts path = q at hpath ⊢
    cases hpath
    rfl
  | some d =>
    rw [hd] at hpath
    generalize parts path = q at hpath ⊢
    cases hpath with
    | some hl => simp only [openPart, xlsbSheet, scan_loses hl]

/-- The example sheet with an error in a row of its own, and one in the last row. -/
def exErrSheet : XSheet :=
  let err (n : Nat) (col : Nat) (s : Str) : XCell :=
    TCell.xml ⟨col, exDigits n, some 1, .plain s, [(attT, ['e'])], []⟩
  { exTSheet with
    rows := exTSheet.rows.take 2 ++ [⟨[], [err 3 1 "#DIV/0!".toList]⟩] ++
      (exTSheet.rows.drop 3).map fun r => { r with cells := r.cells ++ [err 4 3 "#N/A".toList] } }

example : exErrSheet.withoutErrors.rows.map (·.cells.length) = [2, 0, 0, 3] ∧
    exErrSheet.rows.map (·.cells.length) = [2, 0, 1, 4] := by
  decide +kernel

example :
    let doc : XmlDoc := ⟨exErrSheet.events, false⟩
    (readFile demoEnv exLib (fun _ => none) (fun _ _ => .ok false) exInt {}
      ⟨[workbookXml], { exXlsxFile with parts := fun _ => some doc }, exFile⟩).map (·.arrays) =
    .ok [.arr ⟨.utf8, [some (.str ['y', 'z']), none, none, some (.str ['1'])]⟩,
      .arr ⟨.ts, [none, none, none, some (.ts 1704067200000)]⟩,
      .arr ⟨.utf8, [some (.str ['q']), none, none, some (.str ['x'])]⟩] := by
  decide +kernel

/-- The example part with two error records. -/
def exErrPart : List Record := exPart.take 4 ++ [⟨3, [3, 0, 0, 0, 1, 0, 0, 0, 7]⟩] ++ exPart.drop 4 ++ [⟨11, [7]⟩]

example : exErrPart.filter (fun r => !r.isError) = exPart ∧
    (readFile demoEnv exLib (fun _ => none) (fun _ _ => .ok false) exInt { nulls := .values [['-']] }
      ⟨[workbookBin], exXlsxFile, { exFile with parts := fun _ => some (bytesOf exErrPart) }⟩).map (·.arrays) =
    (readFile demoEnv exLib (fun _ => none) (fun _ _ => .ok false) exInt { nulls := .values [['-']] }
      ⟨[workbookBin], exXlsxFile, exFile⟩).map (·.arrays) := by
  decide +kernel

end Rxls
