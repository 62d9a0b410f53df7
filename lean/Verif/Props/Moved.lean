import Verif.Lemmas.Moved
import Verif.Props.Rels
import Verif.Props.TakeRows

/-! # Property C121: where the table stands on the sheet does not matter -/

namespace Rxls

variable {f : Int → Int}

def Ev.move (f : Int → Int) : Ev → Ev
  | .callback => .callback
  | .cell c => .cell (c.move f)

theorem cells_move (evs : List Ev) : (evs.map (Ev.move f)).filterMap Ev.cell? = (evs.filterMap Ev.cell?).map (Cell.move f) := by
  induction evs with
  | nil => rfl
  | cons e evs ih =>
    cases e with
    | callback => exact ih
    | cell c => simp only [List.map_cons, Ev.move, List.filterMap_cons, Ev.cell?, ih]

theorem contains_move (hf : StrictMono f) (l : List Int) (k : Int) : (l.map f).contains (f k) = l.contains k := by
  rw [Bool.eq_iff_iff]
  simp [hf.injective.eq_iff]

/-! ## XLSX -/

/-- States of the worker on the two sheets: inside a cell, the references name the two columns. -/
def StateMoved (f : Int → Int) (st st' : XlsxState) : Prop :=
  st' = { st with lCol := st'.lCol } ∧ (st.lTag = none ∨ colIdx (st'.lCol.flatMap String.utf8EncodeChar) =
    f (colIdx (st.lCol.flatMap String.utf8EncodeChar)))

theorem runXlsx_move (hf : StrictMono f) (styles : List (Str × Nat)) (isNull : Str → Bool) (o : SheetArgs) (bad : Bool)
    {es es' : List Xml} (h : List.Forall₂ (Xml.Moved f) es es') : ∀ {st st' : XlsxState}, StateMoved f st st' →
    runXlsx styles isNull { o with skipCols := o.skipCols.map f } bad es' st' =
      ((runXlsx styles isNull o bad es st).1.map (Ev.move f), (runXlsx styles isNull o bad es st).2) := by
  induction h with
  | nil => intros; rfl
  | @cons e e' es es' he h ih =>
    intro st st' hs
    obtain ⟨row, empty, cRow, cTyp, lCol, lTag, take⟩ := st
    obtain ⟨row', empty', cRow', cTyp', lCol', lTag', take'⟩ := st'
    obtain ⟨heq, htag⟩ := hs
    simp only [XlsxState.mk.injEq, true_and] at heq
    obtain ⟨rfl, rfl, rfl, rfl, rfl, rfl⟩ := heq
    simp only at htag
    cases he with
    | noRef attrs hr =>
      simp only [runXlsx, xlsxStart]
      cases lTag' with
      | some u => exact ih ⟨rfl, .inr (htag.resolve_left (by simp))⟩
      | none =>
        simp only [attrAt, hr]
        by_cases hc : True ∧ o.skipRows ≤ row'
        · simp only [if_pos hc]; rfl
        · simp only [if_neg hc]
          exact ih ⟨rfl, .inl rfl⟩
    | cell attrs attrs' r r' n n' d d' hr hr' hn hd hn' hd' hnn ht hst =>
      simp only [runXlsx, xlsxStart]
      cases lTag' with
      | some u => exact ih ⟨rfl, .inr (htag.resolve_left (by simp))⟩
      | none =>
        simp only [attrAt, hr, hr']
        by_cases hc : True ∧ o.skipRows ≤ row'
        · simp only [if_pos hc]
          refine ih ⟨?_, .inr ?_⟩
          · simp only [xlsxType, ht, hst]
          · simp only [hn, hn', colIdx_colName _ _ hd, colIdx_colName _ _ hd', hnn]
        · simp only [if_neg hc]
          exact ih ⟨rfl, .inl rfl⟩
    | other e hne =>
      cases e with
      | start t attrs =>
        have hc : t ≠ tagC := fun h => hne attrs (by rw [h])
        simp only [runXlsx, xlsxStart]
        cases lTag' with
        | some u => exact ih ⟨rfl, .inr (htag.resolve_left (by simp))⟩
        | none =>
          simp only [hc, false_and, if_false]
          exact ih ⟨rfl, .inl rfl⟩
      | close t =>
        simp only [runXlsx, xlsxEnd]
        by_cases h1 : t = tagRow
        · simp only [h1, if_true]
          generalize take' + (if empty' && o.keepEmpty then 1 else 0) + (if o.keepEmpty && empty' then 1 else 0) = tk
          generalize (if !empty' || o.keepEmpty then row' + 1 else row') = rw'
          by_cases h2 : 0 < tk ∧ tk < rw'
          · simp [h2, Ev.move]
          · simp only [h2, decide_false, Bool.false_eq_true, if_false]
            rw [ih (st := ⟨rw', empty', cRow', cTyp', lCol, lTag', tk⟩) ⟨rfl, htag⟩]
            simp [Ev.move]
        · simp only [h1, if_false]
          by_cases h2 : t = tagC
          · simp only [h2, if_true, Bool.false_eq_true, if_false, List.nil_append]
            exact ih ⟨rfl, .inl rfl⟩
          · simp only [h2, Bool.false_eq_true, if_false, List.nil_append]
            exact ih ⟨rfl, htag⟩
      | text s =>
        simp only [runXlsx, xlsxText]
        by_cases h1 : row' < o.skipRows
        · simp only [h1, if_true, List.nil_append]
          exact ih ⟨rfl, htag⟩
        · simp only [h1, if_false]
          by_cases h2 : lTag' = some tagV ∧ pyStrip s ≠ []
          · rw [if_pos h2, if_pos h2]
            have hcol := htag.resolve_left (by rw [h2.1]; simp)
            by_cases h3 : isNull (pyStrip s) = true
            · simp only [h3, if_true, List.nil_append]
              exact ih ⟨rfl, htag⟩
            · simp only [h3, if_false, hcol, contains_move hf, List.isEmpty_map]
              by_cases h4 : o.skipCols.isEmpty = true ∨
                  o.skipCols.contains (colIdx (lCol.flatMap String.utf8EncodeChar)) = false
              · simp only [if_pos h4]
                rw [ih (st := ⟨row', false, cRow', cTyp', lCol, lTag', take'⟩) ⟨rfl, htag⟩]
                simp [Ev.move, Cell.move]
              · simp only [if_neg h4, List.nil_append]
                exact ih ⟨rfl, htag⟩
          · rw [if_neg h2, if_neg h2]
            simp only [List.nil_append]
            exact ih ⟨rfl, htag⟩

theorem sheet_move (hf : StrictMono f) (styles : List (Str × Nat)) (isNull : Str → Bool) (o : SheetArgs) {d d' : XmlDoc}
    (h : d.Moved f d') :
    (xlsxSheet styles isNull { o with skipCols := o.skipCols.map f } d').1.filterMap Ev.cell? =
      ((xlsxSheet styles isNull o d).1.filterMap Ev.cell?).map (Cell.move f) := by
  simp only [xlsxSheet]
  rw [← h.1, runXlsx_move hf styles isNull o d.bad h.2 (st := { take := o.takeRows + o.skipRows }) ⟨rfl, .inl rfl⟩]
  exact cells_move _

/-- **C121** for XLSX files.  With the columns of the worksheets moved by a function that keeps their order, and the
columns named in the arguments moved in the same way, the result of `read` is the same, an exception included.  Any
sheet, any arguments. -/
theorem C121_xlsx {A D : Type} (hf : StrictMono f) (env : Env) (lib : Lib A D) (search : Str → Option (Str → Bool))
    (reMatch : Str → Str → Py Bool) (toInt : Str → Option Int) (isNull : Str → Bool) (o : ConcatOpts) (ia : IterArgs)
    (args : ReadArgs D) (p p' : XlsxFile) (h1 : p.rels = p'.rels) (h2 : p.workbook = p'.workbook)
    (h3 : p.shared = p'.shared) (h4 : p.styles = p'.styles)
    (h5 : ∀ n, Option.Rel (XmlDoc.Moved f) (p.parts n) (p'.parts n)) :
    readXlsx env lib search reMatch toInt isNull o { ia with skipCols := ia.skipCols.map f }
        { args with lookup := args.lookup.move f } p' =
      readXlsx env lib search reMatch toInt isNull o ia args p := by
  have e1 : p'.formats toInt = p.formats toInt := by unfold XlsxFile.formats; rw [h4]
  have e2 : p'.strings isNull = p.strings isNull := by unfold XlsxFile.strings; rw [h3]
  unfold readXlsx
  rw [← h1, ← h2, e1, e2]
  cases xlsxSheets p.rels p.workbook with
  | error e => rfl
  | ok sheets =>
    simp only
    cases selectSheet sheets ia.sheet with
    | error e => rfl
    | ok path =>
      simp only
      cases checkRows ia.skipRows ia.takeRows with
      | error e => rfl
      | ok sk =>
        simp only
        have h5 := h5 path
        generalize p.parts path = a at h5
        generalize p'.parts path = b at h5
        cases h5 with
        | none => rfl
        | @some d d' hd =>
          simp only [openPart]
          cases p.formats toInt with
          | error e => rfl
          | ok styles =>
            simp only
            have e3 := sheet_move hf styles isNull ⟨sk.1, sk.2, ia.keepEmpty, ia.skipCols⟩ hd
            simp only at e3
            simp only [e3, List.isEmpty_map]
            split
            · rfl
            · cases p.strings isNull with
              | error e => rfl
              | ok sh => exact readCells_move hf env lib search reMatch args _ _

/-! ## XLSB -/

theorem slice_tail (n i j : Nat) (rest : Bytes) (hi : 4 ≤ i) : pySlice (le32 n ++ rest) i j = pySlice rest (i - 4) (j - 4) := by
  have hl : (le32 n).length = 4 := rfl
  unfold pySlice
  rw [List.take_append, List.drop_append, hl, List.drop_eq_nil_of_le (by simp [hl]; omega), List.nil_append,
    List.length_take, hl]
  by_cases h : 4 ≤ j
  · rw [Nat.min_eq_right h]
  · rw [show j - 4 = 0 by omega]
    simp

theorem slice_head (n : Nat) (rest : Bytes) : pySlice (le32 n ++ rest) 0 4 = le32 n := by
  unfold pySlice
  rw [List.take_append_of_le_length (by rfl)]
  rfl

theorem xlsbCell_move (hf : StrictMono f) (styles : List Bytes) (isNull : Str → Bool) (nulls : List Bytes)
    (cols : List Int) (i n n' : Nat) (rest : Bytes) (hn : n < 2 ^ 32) (hn' : n' < 2 ^ 32) (hnn : (n' : Int) = f n) :
    xlsbCell styles isNull nulls (cols.map f) ⟨i, le32 n' ++ rest⟩ =
      (xlsbCell styles isNull nulls cols ⟨i, le32 n ++ rest⟩).map (Option.map fun t => (f t.1, t.2)) := by
  unfold xlsbCell
  simp only [slice_head, unpackI_le32 hn, unpackI_le32 hn', hnn, contains_move hf, List.isEmpty_map,
    slice_tail n' 4 7 _ (by omega), slice_tail n 4 7 _ (by omega),
    slice_tail _ 8 12 _ (by omega : 4 ≤ 8), slice_tail _ 8 9 _ (by omega : 4 ≤ 8), slice_tail _ 8 16 _ (by omega : 4 ≤ 8),
    slice_tail _ 12 _ _ (by omega : 4 ≤ 12)]
  split
  · rfl
  split
  · cases unpackI (pySlice rest (8 - 4) (12 - 4)) with
    | error e => rfl
    | ok m =>
      simp only
      cases decodeUtf16 (pySlice rest (12 - 4) (m * 2 + 12 - 4)) with
      | error e => rfl
      | ok s =>
        simp only
        split <;> rfl
  split
  · rfl
  split
  · rfl
  split
  · split <;> rfl
  · rfl

theorem Record.Moved.recId {r r' : Record} (h : r.Moved f r') : r'.recId = r.recId := by
  cases h <;> rfl

theorem filter_moved {rs rs' : List Record} (h : List.Forall₂ (Record.Moved f) rs rs') (p : Nat → Bool) :
    List.Forall₂ (Record.Moved f) (rs.filter fun r => p r.recId) (rs'.filter fun r => p r.recId) := by
  induction h with
  | nil => exact .nil
  | @cons r r' rs rs' hr h ih =>
    simp only [List.filter_cons, hr.recId]
    split
    · exact .cons hr ih
    · exact ih

theorem iterXlsb_move (hf : StrictMono f) (styles : List Bytes) (isNull : Str → Bool) (nulls : Bool → List Bytes)
    (o : SheetArgs) {rs rs' : List Record} (h : List.Forall₂ (Record.Moved f) rs rs')
    (hids : ∀ r ∈ rs, r.recId ∈ sheetIds) : ∀ st : XlsbState,
    iterXlsb styles isNull nulls { o with skipCols := o.skipCols.map f } rs' st =
      (iterXlsb styles isNull nulls o rs st).map (List.map (Ev.move f)) := by
  induction h with
  | nil => intro st; rfl
  | @cons r r' rs rs' hr h ih =>
    intro st
    have ih := ih fun r hr => hids r (List.mem_cons_of_mem _ hr)
    simp only [iterXlsb, hr.recId, ih]
    by_cases h0 : r.recId = 0
    · simp only [h0, if_true]
      generalize (if !st.empty || o.keepEmpty then st.row + 1 else st.row) = row
      split
      · rfl
      · cases iterXlsb styles isNull nulls o rs { st with row := row, empty := true } with
        | error e => rfl
        | ok evs =>
          simp only [Except.map]
          split <;> rfl
    simp only [h0, if_false]
    split
    · rfl
    by_cases h4 : r.recId = 402
    · simp only [h4, if_true]
      rfl
    simp only [h4, if_false]
    cases hr with
    | other r hr =>
      have := hids r List.mem_cons_self
      simp only [sheetIds, List.mem_cons, List.not_mem_nil, or_false, not_or] at this hr
      omega
    | cell i n n' rest hn hn' hnn =>
      rw [xlsbCell_move hf styles isNull (nulls st.seen) o.skipCols i n n' rest hn hn' hnn]
      cases xlsbCell styles isNull (nulls st.seen) o.skipCols ⟨i, le32 n ++ rest⟩ with
      | error e => rfl
      | ok c =>
        cases c with
        | none => rfl
        | some c =>
          simp only [Except.map, Option.map_some]
          cases iterXlsb styles isNull nulls o rs { st with empty := false, seen := true } <;> rfl

/-- **C121** for XLSB files. -/
theorem C121_xlsb {A D : Type} (hf : StrictMono f) (env : Env) (lib : Lib A D) (search : Str → Option (Str → Bool))
    (reMatch : Str → Str → Py Bool) (isNull : Str → Bool) (o : ConcatOpts) (ia : IterArgs)
    (args : ReadArgs D) (p p' : XlsbFile) (h1 : p.rels = p'.rels) (h2 : p.workbook = p'.workbook)
    (h3 : p.shared = p'.shared) (h4 : p.styles = p'.styles)
    (h5 : ∀ n, Option.Rel (PartMoved f) (p.parts n) (p'.parts n)) :
    readXlsb env lib search reMatch isNull o { ia with skipCols := ia.skipCols.map f }
        { args with lookup := args.lookup.move f } p' =
      readXlsb env lib search reMatch isNull o ia args p := by
  have e1 : p'.temporal = p.temporal := by unfold XlsbFile.temporal; rw [h4]
  have e2 : p'.strings isNull = p.strings isNull := by unfold XlsbFile.strings; rw [h3]
  unfold readXlsb
  rw [← h1, ← h2, e1, e2]
  cases xlsbSheets p.rels p.workbook with
  | error e => rfl
  | ok sheets =>
    simp only
    cases selectSheet sheets ia.sheet with
    | error e => rfl
    | ok path =>
      simp only
      cases checkRows ia.skipRows ia.takeRows with
      | error e => rfl
      | ok sk =>
        simp only
        have h5 := h5 path
        generalize p.parts path = a at h5
        generalize p'.parts path = b at h5
        cases h5 with
        | none => rfl
        | @some d d' hd =>
          simp only [openPart]
          cases p.temporal with
          | error e => rfl
          | ok styles =>
            simp only
            cases p.strings isNull with
            | error e => rfl
            | ok sh =>
              obtain ⟨rs, rs', hb, hb', hm⟩ := hd
              simp only [xlsbSheet]
              rw [scan_part hb rfl, scan_part hb' rfl, iterXlsb_move hf styles isNull _
                ⟨sk.1, sk.2, ia.keepEmpty, ia.skipCols⟩ (filter_moved hm fun i => decide (i ∈ sheetIds))
                (by intro r hr; simpa using (List.mem_filter.mp hr).2)]
              cases iterXlsb styles isNull (fun seen => if seen then sh.2 else [])
                  ⟨sk.1, sk.2, ia.keepEmpty, ia.skipCols⟩ (rs.filter fun r => decide (r.recId ∈ sheetIds)) {} with
              | error e => rfl
              | ok evs =>
                simp only [Except.map, cells_move]
                exact readCells_move hf env lib search reMatch args _ _

/-- **C121** for files. -/
theorem C121_file {A D : Type} (hf : StrictMono f) (env : Env) (lib : Lib A D) (search : Str → Option (Str → Bool))
    (reMatch : Str → Str → Py Bool) (toInt : Str → Option Int) (a : FileArgs D) (p p' : Package) (h : p.Moved f p') :
    readFile env lib search reMatch toInt (a.move f) p' = readFile env lib search reMatch toInt a p := by
  obtain ⟨h0, ⟨x1, x2, x3, x4, x5⟩, ⟨b1, b2, b3, b4, b5⟩⟩ := h
  unfold readFile
  rw [← h0]
  cases fileKind p.names with
  | error e => rfl
  | ok k =>
    cases k with
    | xlsx => exact C121_xlsx hf env lib search reMatch toInt _ _ a.iter a.table p.xlsx p'.xlsx x1 x2 x3 x4 x5
    | xlsb => exact C121_xlsb hf env lib search reMatch _ _ a.iter a.table p.xlsb p'.xlsb b1 b2 b3 b4 b5

/-! ### Columns `A`, `B` and `D` moved to `D`, `F` and `H` -/

/-- Three columns to the right, and one more from the second column on. -/
def exShift (k : Int) : Int := if k ≤ 0 then k + 3 else k + 4

theorem exShift_mono : StrictMono exShift := by
  intro a b h
  unfold exShift
  split <;> split <;> omega

def exPlaced (ref text : Str) : List Xml :=
  [.start tagC [(attR, ref)], .start tagV [], .text text, .close tagV, .close tagC]

def exPlacedRow (l : List (Str × Str)) : List Xml :=
  .start tagRow [] :: (l.flatMap (fun p => exPlaced p.1 p.2) ++ [.close tagRow])

def exPlacedFile (l : List (List (Str × Str))) : XlsxFile :=
  { exXlsxFile with parts := fun n => if n = ['x', 'l', '/', 's', '1'] then some ⟨l.flatMap exPlacedRow, false⟩ else none }

def exHere : List (List (Str × Str)) :=
  [[(['A', '1'], ['k']), (['B', '1'], ['v']), (['D', '1'], ['w'])], [(['A', '2'], ['1']), (['D', '2'], ['x'])],
    [(['B', '3'], ['y']), (['D', '3'], ['z'])]]

def exThere : List (List (Str × Str)) :=
  [[(['D', '1'], ['k']), (['F', '1'], ['v']), (['H', '1'], ['w'])], [(['D', '2'], ['1']), (['H', '2'], ['x'])],
    [(['F', '3'], ['y']), (['H', '3'], ['z'])]]

/-- The cells of the example: rows of one digit. -/
theorem exPlaced_moved (ref ref' text : Str) (n n' i : Nat) (hi : i < 10)
    (h : ref.flatMap String.utf8EncodeChar = colName n ++ exDigits i)
    (h' : ref'.flatMap String.utf8EncodeChar = colName n' ++ exDigits i) (hf : (n' : Int) = exShift n) :
    List.Forall₂ (Xml.Moved exShift) (exPlaced ref text) (exPlaced ref' text) :=
  .cons (.cell _ _ ref ref' n n' _ _ rfl rfl h (exDigits_ok i hi) h' (exDigits_ok i hi) hf rfl rfl)
    (.cons (.other _ (by intro a h; injection h with h; exact absurd h (by decide)))
      (.cons (.other _ (by intro a h; cases h))
        (.cons (.other _ (by intro a h; cases h)) (.cons (.other _ (by intro a h; cases h)) .nil))))

theorem exPlacedRow_moved {l l' : List (Str × Str)}
    (h : List.Forall₂ (fun p p' => List.Forall₂ (Xml.Moved exShift) (exPlaced p.1 p.2) (exPlaced p'.1 p'.2)) l l') :
    List.Forall₂ (Xml.Moved exShift) (exPlacedRow l) (exPlacedRow l') := by
  unfold exPlacedRow
  refine .cons (.other _ (by intro a h; injection h with h; exact absurd h (by decide))) ?_
  induction h with
  | nil => exact .cons (.other _ (by intro a h; cases h)) .nil
  | cons hp h ih =>
    simp only [List.flatMap_cons, List.append_assoc]
    exact List.rel_append hp ih

/-- The premises of `C121_xlsx` hold for two files, and the result: the header is looked up in column `A`, which is
column `D` of the second file, and column `B` there `F` is left out. -/
example :
    StrictMono exShift ∧
    (∀ n, Option.Rel (XmlDoc.Moved exShift) ((exPlacedFile exHere).parts n) ((exPlacedFile exThere).parts n)) ∧
    [({ iter := { skipCols := [1] }, table := { header := .rows 1, lookup := .column 0 } }, exHere),
      ({ iter := { skipCols := [5] }, table := { header := .rows 1, lookup := .column 3 } }, exThere)].map
      (fun q => readFile demoEnv exLib (fun _ => none) (fun _ _ => .ok false) exInt q.1
        ⟨[workbookXml], exPlacedFile q.2, exFile⟩) =
    List.replicate 2 (.ok ⟨[['k'], ['w']],
      [.arr ⟨.utf8, [some (.str ['1']), none]⟩, .arr ⟨.utf8, [some (.str ['x']), some (.str ['z'])]⟩]⟩) := by
  refine ⟨exShift_mono, ?_, by decide +kernel⟩
  intro n
  unfold exPlacedFile
  simp only
  split
  · refine .some ⟨rfl, ?_⟩
    simp only [exHere, exThere, List.flatMap_cons, List.flatMap_nil, List.append_nil]
    refine List.rel_append (exPlacedRow_moved (.cons ?_ (.cons ?_ (.cons ?_ .nil))))
      (List.rel_append (exPlacedRow_moved (.cons ?_ (.cons ?_ .nil))) (exPlacedRow_moved (.cons ?_ (.cons ?_ .nil))))
    · exact exPlaced_moved _ _ _ 0 3 1 (by omega) (by decide +kernel) (by decide +kernel) (by decide)
    · exact exPlaced_moved _ _ _ 1 5 1 (by omega) (by decide +kernel) (by decide +kernel) (by decide)
    · exact exPlaced_moved _ _ _ 3 7 1 (by omega) (by decide +kernel) (by decide +kernel) (by decide)
    · exact exPlaced_moved _ _ _ 0 3 2 (by omega) (by decide +kernel) (by decide +kernel) (by decide)
    · exact exPlaced_moved _ _ _ 3 7 2 (by omega) (by decide +kernel) (by decide +kernel) (by decide)
    · exact exPlaced_moved _ _ _ 1 5 3 (by omega) (by decide +kernel) (by decide +kernel) (by decide)
    · exact exPlaced_moved _ _ _ 3 7 3 (by omega) (by decide +kernel) (by decide +kernel) (by decide)
  · exact .none

/-- Two rows with a number and a shared string. -/
def exPlacedRecs (a b : Nat) : List Record :=
  [⟨145, []⟩, ⟨0, []⟩, ⟨2, le32 a ++ ([0, 0, 0, 0] ++ le32 6)⟩, ⟨7, le32 b ++ ([0, 0, 0, 0] ++ le32 0)⟩,
    ⟨0, []⟩, ⟨2, le32 a ++ ([0, 0, 0, 0] ++ le32 10)⟩, ⟨7, le32 b ++ ([0, 0, 0, 0] ++ le32 1)⟩, ⟨402, []⟩]

def exPlacedBin (a b : Nat) : XlsbFile :=
  { exFile with parts := fun n => if n = "xl/s1".toList then some (bytesOf (exPlacedRecs a b)) else none }

/-- The same for XLSB: columns 0 and 1 there, 3 and 5 here. -/
example :
    (∀ n, Option.Rel (PartMoved exShift) ((exPlacedBin 0 1).parts n) ((exPlacedBin 3 5).parts n)) ∧
    [(0, exPlacedBin 0 1), (3, exPlacedBin 3 5)].map (fun q => readFile demoEnv exLib (fun _ => none)
      (fun _ _ => .ok false) exInt { table := { lookup := .column q.1 } } ⟨[workbookBin], exXlsxFile, q.2⟩) =
    List.replicate 2 (.ok ⟨[unnamedDot ++ ['0'], unnamedDot ++ ['1']],
      [.arr ⟨.i8, [some (.i8 1), some (.i8 2)]⟩, .arr ⟨.utf8, [some (.str ['x']), some (.str ['y', 'z'])]⟩]⟩) := by
  refine ⟨?_, by decide +kernel⟩
  intro n
  unfold exPlacedBin
  simp only
  split
  · refine .some ⟨exPlacedRecs 0 1, exPlacedRecs 3 5, by decide +kernel, by decide +kernel, ?_⟩
    have c0 : ∀ i rest, Record.Moved exShift ⟨i, le32 0 ++ rest⟩ ⟨i, le32 3 ++ rest⟩ :=
      fun i rest => .cell i 0 3 rest (by omega) (by omega) (by decide)
    have c1 : ∀ i rest, Record.Moved exShift ⟨i, le32 1 ++ rest⟩ ⟨i, le32 5 ++ rest⟩ :=
      fun i rest => .cell i 1 5 rest (by omega) (by omega) (by decide)
    exact .cons (.other _ (by decide)) (.cons (.other _ (by decide)) (.cons (c0 _ _) (.cons (c1 _ _)
      (.cons (.other _ (by decide)) (.cons (c0 _ _) (.cons (c1 _ _) (.cons (.other _ (by decide)) .nil)))))))
  · exact .none

/-- `row_filters` counts the columns of the table and is not moved, whereas `lookup_head` and `skip_cols` count those of
the sheet: the same number means two different columns.  The number 1 is the second column of the table as a filter
(rows with a value in it are kept: the second one), but no column at all for `lookup_head`. -/
theorem C121_two_counts :
    (readFile demoEnv exLib (fun _ => none) (fun _ _ => .ok false) exInt
      { table := { header := .rows 1, filters := .positions [1] } }
      ⟨[workbookXml], exPlacedFile exThere, exFile⟩).map (·.arrays) =
      .ok [.arr ⟨.utf8, [none]⟩, .arr ⟨.utf8, [some (.str ['y'])]⟩, .arr ⟨.utf8, [some (.str ['z'])]⟩] ∧
    readFile demoEnv exLib (fun _ => none) (fun _ _ => .ok false) exInt
      { table := { header := .rows 1, lookup := .column 1 } }
      ⟨[workbookXml], exPlacedFile exThere, exFile⟩ = .error .keyError := by
  decide +kernel

end Rxls
