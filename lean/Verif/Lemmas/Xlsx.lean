import Verif.Spec.Xlsx
import Verif.Lemmas.Sheet

/-! # Lemmas about the XLSX worker -/

namespace Rxls

variable {styles : List (Str × Nat)} {isNull : Str → Bool} {o : SheetArgs} {bad : Bool}

/-- How a parse that is not stopped ends. -/
def exitOf (bad : Bool) : Exit := if bad then .died .runtimeError else .finished

/-- Outside cells nothing happens between rows. -/
theorem run_plain_outside (es rest : List Xml) (h : ∀ e ∈ es, e.plain) (st : XlsxState) (hl : st.lTag = none) :
    runXlsx styles isNull o bad (es ++ rest) st = runXlsx styles isNull o bad rest st := by
  induction es with
  | nil => rfl
  | cons e es ih =>
    have he := h e (by simp)
    have ih := ih fun e he => h e (by simp [he])
    rw [List.cons_append]
    cases e with
    | start t a =>
      simp only [Xml.plain] at he
      simp [runXlsx, xlsxStart, hl, he.1, ih]
    | text s =>
      have : xlsxText isNull o.skipRows o.skipCols st s = (st, []) := by
        simp [xlsxText, hl]
      simp [runXlsx, this, ih]
    | close t =>
      simp only [Xml.plain] at he
      simp [runXlsx, xlsxEnd, he.1, he.2, ih]

/-- In a row before the window nothing happens in a cell. -/
theorem run_plain_skipped (es rest : List Xml) (h : ∀ e ∈ es, e ≠ .close tagRow)
    (st : XlsxState) (hl : st.lTag = none) (hr : st.row < o.skipRows) :
    ∃ st' : XlsxState, runXlsx styles isNull o bad (es ++ rest) st = runXlsx styles isNull o bad rest st' ∧
      st'.row = st.row ∧ st'.empty = st.empty ∧ st'.take = st.take ∧ st'.lTag = none := by
  induction es generalizing st with
  | nil => exact ⟨st, rfl, rfl, rfl, rfl, hl⟩
  | cons e es ih =>
    have he := h e (by simp)
    have ih := ih fun e he => h e (by simp [he])
    rw [List.cons_append]
    cases e with
    | start t a =>
      have h0 : ¬ (o.skipRows ≤ st.row) := by omega
      have h1 : xlsxStart styles o.skipRows st t a = .ok st := by simp [xlsxStart, hl, h0]
      rw [runXlsx]
      simp only [h1]
      exact ih st hl hr
    | text s =>
      have h1 : xlsxText isNull o.skipRows o.skipCols st s = (st, []) := by simp [xlsxText, hr]
      rw [runXlsx]
      simp only [h1, List.nil_append]
      exact ih st hl hr
    | close t =>
      have ht : t ≠ tagRow := fun h => he (by rw [h])
      rw [runXlsx]
      by_cases hc : t = tagC
      · have h1 : xlsxEnd o.keepEmpty st t = ({ st with cTyp := 0, lTag := none }, [], false) := by
          simp only [xlsxEnd, ht, if_false, hc, if_true]
          rw [if_neg (by decide)]
        simp only [h1, List.nil_append, Bool.false_eq_true, if_false]
        exact ih { st with cTyp := 0, lTag := none } rfl hr
      · have h1 : xlsxEnd o.keepEmpty st t = (st, [], false) := by simp [xlsxEnd, ht, hc]
        simp only [h1, List.nil_append, Bool.false_eq_true, if_false]
        exact ih st hl hr

/-- Inside a cell of the window: the texts directly after `<v>`. -/
theorem run_body (body rest : List Xml) (h : ∀ e ∈ body, e.plain) (c : XCell) (l : Str) :
    ∀ (st : XlsxState), st.lTag = some l → o.skipRows ≤ st.row → st.cRow = st.row →
      st.cTyp = xlsxType styles c.attrs → st.lCol = (attrGet c.attrs attR).getD [] →
    ∃ st' : XlsxState,
      let is : List Item := (((valueTexts l body).map pyStrip).filter fun t =>
          t ≠ [] ∧ isNull t = false ∧ c.col ∉ o.skipCols).map fun t => (c.col, xlsxType styles c.attrs, .text t)
      runXlsx styles isNull o bad (body ++ rest) st =
        ((is.map fun i => Ev.cell ⟨st.row - o.skipRows, i.1, i.2.1, i.2.2⟩) ++
            (runXlsx styles isNull o bad rest st').1, (runXlsx styles isNull o bad rest st').2) ∧
      st' = { st with empty := st.empty && is.isEmpty, lTag := st'.lTag } := by
  induction body generalizing l with
  | nil =>
    intro st hl _ _ _ _
    refine ⟨st, ?_, ?_⟩
    · simp [valueTexts]
    · simp [valueTexts]
  | cons e es ih =>
    intro st hl hr hrow htyp hcol
    have he := h e (by simp)
    have ih := ih fun e he => h e (by simp [he])
    rw [List.cons_append]
    cases e with
    | start t a =>
      obtain ⟨st', h1, h2⟩ := ih t { st with lTag := some t } rfl hr hrow htyp hcol
      refine ⟨st', ?_, ?_⟩
      · simp only [runXlsx, xlsxStart, hl, valueTexts]
        exact h1
      · exact h2
    | close t =>
      simp only [Xml.plain] at he
      obtain ⟨st', h1, h2⟩ := ih l st hl hr hrow htyp hcol
      refine ⟨st', ?_, ?_⟩
      · simp only [runXlsx, xlsxEnd, he.1, he.2, if_false, valueTexts]
        simpa using h1
      · exact h2
    | text s =>
      have hnr : ¬ (st.row < o.skipRows) := by omega
      by_cases hv : l = tagV
      · subst hv
        by_cases hk : pyStrip s ≠ [] ∧ isNull (pyStrip s) = false ∧ c.col ∉ o.skipCols
        · obtain ⟨st', h1, h2⟩ := ih tagV { st with empty := false } hl hr hrow htyp hcol
          have hskip : o.skipCols.isEmpty ∨ o.skipCols.contains c.col = false := by
            right; simpa using hk.2.2
          have ht : xlsxText isNull o.skipRows o.skipCols st s =
              ({ st with empty := false },
                [.cell ⟨st.row - o.skipRows, c.col, xlsxType styles c.attrs, .text (pyStrip s)⟩]) := by
            have : colIdx (st.lCol.flatMap String.utf8EncodeChar) = c.col := by rw [hcol]; rfl
            simp only [xlsxText, hnr, if_false, hl, hk.1, hk.2.1, true_and, ne_eq, not_false_eq_true, if_true,
              this, hrow, htyp, hskip, Bool.false_eq_true]
          refine ⟨st', ?_, ?_⟩
          · simp only [runXlsx, ht, h1, valueTexts, if_true, List.map_cons]
            rw [List.filter_cons, if_pos (by simpa using hk)]
            simp
          · rw [h2]
            simp only [valueTexts, if_true, List.map_cons]
            rw [List.filter_cons, if_pos (by simpa using hk)]
            simp
        · obtain ⟨st', h1, h2⟩ := ih tagV st hl hr hrow htyp hcol
          have ht : xlsxText isNull o.skipRows o.skipCols st s = (st, []) := by
            have e : colIdx (st.lCol.flatMap String.utf8EncodeChar) = c.col := by rw [hcol]; rfl
            simp only [xlsxText, hnr, if_false, hl, true_and, e]
            by_cases h1 : pyStrip s = []
            · simp [h1]
            · by_cases h2 : isNull (pyStrip s) = true
              · simp [h1, h2]
              · have h3 : c.col ∈ o.skipCols := by
                  by_contra h3
                  exact hk ⟨h1, by simpa using h2, h3⟩
                have h4 : ¬ (o.skipCols = []) := by rintro h; rw [h] at h3; simp at h3
                simp [h1, h2, h3, h4]
          refine ⟨st', ?_, ?_⟩
          · simp only [runXlsx, ht, h1, valueTexts, if_true, List.map_cons]
            rw [List.filter_cons, if_neg (by simpa using hk)]
            simp
          · rw [h2]
            simp only [valueTexts, if_true, List.map_cons]
            rw [List.filter_cons, if_neg (by simpa using hk)]
      · obtain ⟨st', h1, h2⟩ := ih l st hl hr hrow htyp hcol
        have ht : xlsxText isNull o.skipRows o.skipCols st s = (st, []) := by
          simp [xlsxText, hl, hv]
        refine ⟨st', ?_, ?_⟩
        · simp only [runXlsx, ht, h1, valueTexts, hv, if_false]
          simp
        · rw [h2]
          simp only [valueTexts, hv, if_false]

theorem isEmpty_append {α : Type} (a b : List α) : (a ++ b).isEmpty = (a.isEmpty && b.isEmpty) := by
  cases a <;> rfl

/-- The cells of a row in the window. -/
theorem run_cells (cells : List XCell) (rest : List Xml) (h : ∀ c ∈ cells, ∀ e ∈ c.body, e.plain)
    (href : ∀ c ∈ cells, (attrGet c.attrs attR).isSome = true) :
    ∀ (st : XlsxState), st.lTag = none → o.skipRows ≤ st.row →
    ∃ st' : XlsxState,
      let is := cells.flatMap (XCell.items styles isNull o.skipCols)
      runXlsx styles isNull o bad (cells.flatMap XCell.events ++ rest) st =
        ((is.map fun i => Ev.cell ⟨st.row - o.skipRows, i.1, i.2.1, i.2.2⟩) ++
            (runXlsx styles isNull o bad rest st').1, (runXlsx styles isNull o bad rest st').2) ∧
      st'.row = st.row ∧ st'.empty = (st.empty && is.isEmpty) ∧ st'.take = st.take ∧ st'.lTag = none := by
  induction cells with
  | nil => intro st hl _; exact ⟨st, by simp, rfl, by simp, rfl, hl⟩
  | cons c cells ih =>
    intro st hl hr
    have hc := h c (by simp)
    obtain ⟨r, hr'⟩ := Option.isSome_iff_exists.1 (href c (by simp))
    have ih := ih (fun c hc => h c (by simp [hc])) (fun c hc => href c (by simp [hc]))
    let st1 : XlsxState := { st with lCol := r, cTyp := xlsxType styles c.attrs, cRow := st.row, lTag := some tagC }
    obtain ⟨st2, h1, h2⟩ := run_body (styles := styles) (isNull := isNull) (o := o) (bad := bad) c.body
      (.close tagC :: (cells.flatMap XCell.events ++ rest)) hc c tagC st1 rfl hr rfl rfl (by simp [st1, hr'])
    have hcr : ¬ (tagC = tagRow) := by decide
    obtain ⟨st3, h3, h4, h5, h6, h7⟩ := ih { st2 with cTyp := 0, lTag := none } rfl (by rw [h2]; exact hr)
    refine ⟨st3, ?_, ?_, ?_, ?_, h7⟩
    · simp only [List.flatMap_cons, XCell.events, List.append_assoc, List.cons_append, List.nil_append]
      rw [runXlsx]
      have : xlsxStart styles o.skipRows st tagC c.attrs = .ok st1 := by
        simp [xlsxStart, hl, hr, attrAt, hr', st1]
      simp only [this]
      rw [h1]
      simp only [runXlsx, xlsxEnd, hcr, if_false, if_true, Bool.false_eq_true, List.nil_append]
      rw [h3]
      have : st2.row = st.row := by rw [h2]
      simp [XCell.items, this, st1]
    · rw [h4, h2]
    · rw [h5, h2]
      simp only [List.flatMap_cons, st1]
      cases st.empty
      · rfl
      · simp only [Bool.true_and, XCell.items]
        rw [isEmpty_append]
    · rw [h6, h2]

/-- The worker, row by row, on the values of the rows. -/
def runRowsX (o : SheetArgs) (bad : Bool) : List (List Item) → Nat → Bool → Nat → List Ev × Exit
  | [], _, _, _ => ([], exitOf bad)
  | is :: L, row, empty, take =>
    let is' := if o.skipRows ≤ row then is else []
    let empty' := empty && is'.isEmpty
    let row' := if !empty' || o.keepEmpty then row + 1 else row
    let take' := take + (if empty' && o.keepEmpty then 2 else 0)
    let evs := (is'.map fun i => Ev.cell ⟨row - o.skipRows, i.1, i.2.1, i.2.2⟩) ++ [.callback]
    if 0 < take' ∧ take' < row' then (evs, .stopped)
    else
      let r := runRowsX o bad L row' empty' take'
      (evs ++ r.1, r.2)

theorem run_rows (rows : List XRow) (post : List Xml)
    (hb : ∀ r ∈ rows, ∀ c ∈ r.cells, ∀ e ∈ c.body, e.plain)
    (href : ∀ r ∈ rows, ∀ c ∈ r.cells, (attrGet c.attrs attR).isSome = true) (hp : ∀ e ∈ post, e.plain) :
    ∀ (st : XlsxState), st.lTag = none →
    runXlsx styles isNull o bad (rows.flatMap XRow.events ++ post) st =
      runRowsX o bad (rows.map (XRow.items styles isNull o.skipCols)) st.row st.empty st.take := by
  induction rows with
  | nil =>
    intro st hl
    have := run_plain_outside (styles := styles) (isNull := isNull) (o := o) (bad := bad) post [] hp st hl
    rw [List.append_nil] at this
    simp only [List.flatMap_nil, List.nil_append, List.map_nil, runRowsX, this, runXlsx, exitOf]
  | cons r rows ih =>
    intro st hl
    have ih := ih (fun r hr => hb r (by simp [hr])) (fun r hr => href r (by simp [hr]))
    have ih' := fun a b c d e f => ih ⟨a, b, c, d, e, none, f⟩ rfl
    have hrc : ¬ (tagRow = tagC) := by decide
    have hstart : xlsxStart styles o.skipRows st tagRow r.attrs = .ok st := by
      simp [xlsxStart, hl, hrc]
    simp only [List.flatMap_cons, XRow.events, List.append_assoc, List.cons_append, List.nil_append, List.map_cons]
    rw [runXlsx]
    simp only [hstart]
    by_cases hs : o.skipRows ≤ st.row
    · obtain ⟨st', h1, h2, h3, h4, h5⟩ := run_cells (styles := styles) (isNull := isNull) (o := o) (bad := bad)
        r.cells (.close tagRow :: (rows.flatMap XRow.events ++ post)) (hb r (by simp)) (href r (by simp)) st hl hs
      rw [h1, runRowsX]
      simp only [hs, if_true]
      rw [runXlsx]
      simp only [xlsxEnd, if_true, h2, h3, h4, XRow.items]
      have hadd : ∀ b c : Bool, (st.take + (if (b && c) = true then 1 else 0) + if (c && b) = true then 1 else 0) =
          st.take + if (b && c) = true then 2 else 0 := by
        intro b c; cases b <;> cases c <;> simp
      rw [hadd]
      simp only [decide_eq_true_eq]
      rcases Bool.eq_false_or_eq_true
          (st.empty && (r.cells.flatMap (XCell.items styles isNull o.skipCols)).isEmpty) with hE | hE <;>
        cases o.keepEmpty <;>
        simp only [hE, Bool.not_true, Bool.not_false, Bool.or_false, Bool.or_true, Bool.and_true, Bool.and_false,
          if_true, if_false, Bool.false_eq_true, Nat.add_zero] <;>
        split <;> first | rfl | simp only [h5, ih', List.append_assoc]
    · have hcl : ∀ e ∈ r.cells.flatMap XCell.events, e ≠ .close tagRow := by
        intro e he
        simp only [List.mem_flatMap] at he
        obtain ⟨c, hc, he⟩ := he
        simp only [XCell.events, List.mem_cons, List.mem_append, List.not_mem_nil, or_false] at he
        rcases he with rfl | he | rfl
        · simp
        · have := hb r (by simp) c hc e he
          rintro rfl; exact this.2 rfl
        · intro h; injection h with h; exact absurd h (by decide)
      obtain ⟨st', h1, e1, e2, e3, e4⟩ := run_plain_skipped (styles := styles) (isNull := isNull) (o := o)
        (bad := bad) (r.cells.flatMap XCell.events) (.close tagRow :: (rows.flatMap XRow.events ++ post)) hcl st hl
        (by omega)
      rw [h1, runRowsX]
      simp only [hs, if_false]
      rw [runXlsx]
      simp only [xlsxEnd, if_true, e1, e2, e3, List.isEmpty_nil, Bool.and_true, List.map_nil]
      have hadd : ∀ b c : Bool, (st.take + (if (b && c) = true then 1 else 0) + if (c && b) = true then 1 else 0) =
          st.take + if (b && c) = true then 2 else 0 := by
        intro b c; cases b <;> cases c <;> simp
      rw [hadd]
      simp only [decide_eq_true_eq]
      cases st.empty <;> cases o.keepEmpty <;>
        simp only [Bool.not_true, Bool.not_false, Bool.or_false, Bool.or_true, Bool.and_true, Bool.and_false,
          if_true, if_false, Bool.false_eq_true, Nat.add_zero, List.nil_append] <;>
        split <;> first | rfl | simp only [e4, ih']

/-- The worker on a whole part. -/
theorem sheet_rows (s : XSheet) (hs : s.Ok) :
    xlsxSheet styles isNull o ⟨s.events, bad⟩ =
      let r := runRowsX o bad (s.rows.map (XRow.items styles isNull o.skipCols)) 0 true (o.takeRows + o.skipRows)
      (.callback :: r.1, r.2) := by
  unfold xlsxSheet
  simp only [XSheet.events]
  rw [run_plain_outside _ _ hs.pre _ rfl, run_rows _ _ hs.body hs.ref hs.post _ rfl]

/-! ## Closed forms -/

/-- The rows read from `L`, whose first row has number `row`, under the limit `T` (0: none). -/
def winRows (T row : Nat) (L : List (List Item)) : List (List Item) :=
  if T = 0 then L else L.take (T - row + 1)

theorem leadingEmpty_cons (is : List Item) (L : List (List Item)) :
    leadingEmpty (is :: L) = if is.isEmpty then leadingEmpty L + 1 else 0 := by
  unfold leadingEmpty
  rw [List.takeWhile_cons]
  split <;> simp

theorem runX_window (o : SheetArgs) (bad : Bool) (L : List (List Item)) :
    ∀ (row : Nat) (empty : Bool) (τ : Nat), o.skipRows ≤ row →
    (empty = true → o.keepEmpty = true ∧ row ≤ τ) → (empty = false → τ = 0 ∨ row ≤ τ) →
    ∀ T, T = τ + 2 * (if empty then leadingEmpty L else 0) →
    evCells (runRowsX o bad L row empty τ).1 = numberedFrom true (row - o.skipRows) (winRows T row L) ∧
    evCallbacks (runRowsX o bad L row empty τ).1 = (winRows T row L).length ∧
    (runRowsX o bad L row empty τ).2 = if T ≠ 0 ∧ T - row < L.length then .stopped else exitOf bad := by
  induction L with
  | nil =>
    intro row empty τ _ _ _ T _
    simp [runRowsX, winRows, numberedFrom_nil, evCells, evCallbacks]
  | cons is L ih =>
    intro row empty τ hk h1 h2 T hT
    have hcells : ∀ es : List Ev, evCells ((is.map fun i => Ev.cell ⟨row - o.skipRows, i.1, i.2.1, i.2.2⟩) ++
        [.callback] ++ es) = (is.map fun i => (⟨row - o.skipRows, i.1, i.2.1, i.2.2⟩ : Cell)) ++ evCells es := by
      intro es
      rw [evCells_append, evCells_append, evCells_map]
      simp [evCells]
    have hcb : ∀ es : List Ev, evCallbacks ((is.map fun i => Ev.cell ⟨row - o.skipRows, i.1, i.2.1, i.2.2⟩) ++
        [.callback] ++ es) = evCallbacks es + 1 := by
      intro es
      rw [evCallbacks_append, evCallbacks_append, evCallbacks_map]
      simp [evCallbacks]
      omega
    rw [runRowsX]
    simp only [hk, if_true]
    by_cases hE : (empty && is.isEmpty) = true
    · simp only [Bool.and_eq_true, List.isEmpty_iff] at hE
      obtain ⟨rfl, rfl⟩ := hE
      obtain ⟨hkeep, hle⟩ := h1 rfl
      simp only [if_true, leadingEmpty_cons, List.isEmpty_nil] at hT
      simp only [List.isEmpty_nil, Bool.and_true, hkeep, Bool.or_true, if_true]
      rw [if_neg (by omega)]
      obtain ⟨i1, i2, i3⟩ := ih (row + 1) true (τ + 2) (by omega) (fun _ => ⟨hkeep, by omega⟩) (by simp) T
        (by simp only [if_true]; omega)
      have hw : winRows T row ([] :: L) = [] :: winRows T (row + 1) L := by
        unfold winRows
        rw [if_neg (by omega), if_neg (by omega)]
        rw [show T - row + 1 = (T - (row + 1) + 1) + 1 by omega, List.take_succ_cons]
      refine ⟨?_, ?_, ?_⟩
      · simp only
        rw [hcells, i1, hw, numberedFrom_cons]
        simp [show row + 1 - o.skipRows = row - o.skipRows + 1 by omega]
      · simp only
        rw [hcb, i2, hw]
        simp
      · simp only
        rw [i3]
        congr 1
        simp
        omega
    · have hE' : (empty && is.isEmpty) = false := by simpa using hE
      simp only [hE', Bool.not_false, Bool.true_or, if_true, Bool.false_and, Bool.false_eq_true, if_false,
        Nat.add_zero]
      have hT' : T = τ := by
        cases empty with
        | false => simpa using hT
        | true =>
          simp only [Bool.true_and] at hE'
          simpa [leadingEmpty_cons, hE'] using hT
      have hle : τ = 0 ∨ row ≤ τ := by
        cases empty with
        | false => exact h2 rfl
        | true => exact Or.inr (h1 rfl).2
      subst hT'
      by_cases hst : 0 < T ∧ T < row + 1
      · rw [if_pos hst]
        have hw : winRows T row (is :: L) = [is] := by
          unfold winRows
          rw [if_neg (by omega), show T - row + 1 = 1 by omega]
          simp
        refine ⟨?_, ?_, ?_⟩
        · have := hcells []
          simp only [List.append_nil] at this
          simp only
          rw [this, hw, numberedFrom_cons]
          simp [numberedFrom_nil, evCells]
        · have := hcb []
          simp only [List.append_nil] at this
          simp only
          rw [this, hw]
          simp [evCallbacks]
        · rw [if_pos]
          simp
          omega
      · rw [if_neg hst]
        obtain ⟨i1, i2, i3⟩ := ih (row + 1) false T (by omega) (by simp) (fun _ => by omega) T (by simp)
        have hw : winRows T row (is :: L) = is :: winRows T (row + 1) L := by
          unfold winRows
          by_cases h0 : T = 0
          · simp [h0]
          · rw [if_neg h0, if_neg h0]
            rw [show T - row + 1 = (T - (row + 1) + 1) + 1 by omega, List.take_succ_cons]
        refine ⟨?_, ?_, ?_⟩
        · simp only
          rw [hcells, i1, hw, numberedFrom_cons]
          simp [show row + 1 - o.skipRows = row - o.skipRows + 1 by omega]
        · simp only
          rw [hcb, i2, hw]
          simp
        · simp only
          rw [i3]
          congr 1
          simp
          omega

/-- The rows before the window, empty rows counted. -/
theorem runX_skip (o : SheetArgs) (bad : Bool) (hkeep : o.keepEmpty = true) (L : List (List Item)) :
    ∀ (row τ : Nat), row ≤ o.skipRows → row ≤ τ →
    runRowsX o bad L row true τ =
      (List.replicate (min (o.skipRows - row) L.length) .callback ++
        (runRowsX o bad (L.drop (o.skipRows - row)) o.skipRows true (τ + 2 * (o.skipRows - row))).1,
       (runRowsX o bad (L.drop (o.skipRows - row)) o.skipRows true (τ + 2 * (o.skipRows - row))).2) := by
  induction L with
  | nil => intro row τ _ _; simp [runRowsX]
  | cons is L ih =>
    intro row τ hk hτ
    by_cases he : row = o.skipRows
    · subst he; simp
    · rw [runRowsX]
      have : ¬ (o.skipRows ≤ row) := by omega
      simp only [this, if_false, List.isEmpty_nil, Bool.and_true, hkeep, Bool.or_true, if_true, List.map_nil,
        List.nil_append]
      rw [if_neg (by omega), ih (row + 1) (τ + 2) (by omega) (by omega)]
      have hd : (is :: L).drop (o.skipRows - row) = L.drop (o.skipRows - (row + 1)) := by
        rw [show o.skipRows - row = (o.skipRows - (row + 1)) + 1 by omega, List.drop_succ_cons]
      have hm : min (o.skipRows - row) (is :: L).length = min (o.skipRows - (row + 1)) L.length + 1 := by
        simp; omega
      rw [hd, hm, show τ + 2 + 2 * (o.skipRows - (row + 1)) = τ + 2 * (o.skipRows - row) by omega]
      simp [List.replicate_succ]

/-- Leading empty rows, empty rows not counted. -/
theorem runX_leading (o : SheetArgs) (bad : Bool) (hkeep : o.keepEmpty = false) (hk : o.skipRows = 0)
    (L : List (List Item)) (τ : Nat) :
    runRowsX o bad L 0 true τ =
      (List.replicate (leadingEmpty L) .callback ++ (runRowsX o bad (L.dropWhile List.isEmpty) 0 false τ).1,
        (runRowsX o bad (L.dropWhile List.isEmpty) 0 false τ).2) := by
  induction L with
  | nil => simp [runRowsX, leadingEmpty]
  | cons is L ih =>
    rw [leadingEmpty_cons, List.dropWhile_cons]
    cases hi : is.isEmpty with
    | true =>
      rw [runRowsX]
      simp only [hk, Nat.le_refl, if_true, hi, Bool.and_true, hkeep, Bool.or_false, Bool.not_true,
        Bool.false_eq_true, if_false, Bool.and_false, Nat.add_zero]
      rw [if_neg (by omega), ih]
      simp only [List.isEmpty_iff] at hi
      simp [hi, List.replicate_succ]
    | false =>
      simp only [Bool.false_eq_true, if_false]
      rw [runRowsX, runRowsX]
      simp only [hk, Nat.le_refl, if_true, hi, Bool.and_false, List.replicate_zero, List.nil_append]

/-- With `skip_rows` and empty rows not counted nothing is delivered. -/
theorem runX_stuck (o : SheetArgs) (bad : Bool) (hkeep : o.keepEmpty = false) (hk : 0 < o.skipRows)
    (L : List (List Item)) (τ : Nat) :
    runRowsX o bad L 0 true τ = (List.replicate L.length .callback, exitOf bad) := by
  induction L with
  | nil => simp [runRowsX]
  | cons is L ih =>
    rw [runRowsX]
    have : ¬ (o.skipRows ≤ 0) := by omega
    simp only [this, if_false, List.isEmpty_nil, Bool.and_true, hkeep, Bool.not_true, Bool.or_false,
      Bool.false_eq_true, Bool.and_false, Nat.add_zero, List.map_nil, List.nil_append]
    rw [if_neg (by omega), ih]
    simp [List.replicate_succ]

theorem evCells_replicate (n : Nat) : evCells (List.replicate n .callback) = [] := by
  induction n with
  | zero => rfl
  | succ n ih => simp [List.replicate_succ, evCells]

theorem evCallbacks_replicate (n : Nat) : evCallbacks (List.replicate n .callback) = n := by
  simp [evCallbacks]

/-- Everything delivered by the XLSX reader when empty rows are counted. -/
theorem sheet_keep (s : XSheet) (hs : s.Ok) (k t : Nat) (cols : List Int) (L : List (List Item))
    (hL : L = s.rows.map (XRow.items styles isNull cols)) :
    let r := xlsxSheet styles isNull ⟨k, t, true, cols⟩ ⟨s.events, bad⟩
    let T := t + 3 * k + 2 * leadingEmpty (L.drop k)
    evCells r.1 = numberedFrom true 0 (winRows T k (L.drop k)) ∧
    evCallbacks r.1 = 1 + min k L.length + (winRows T k (L.drop k)).length ∧
    r.2 = if T ≠ 0 ∧ T - k < (L.drop k).length then .stopped else exitOf bad := by
  have h0 := runX_skip ⟨k, t, true, cols⟩ bad rfl L 0 (t + k) (by simp) (by simp)
  obtain ⟨h1, h2, h3⟩ := runX_window ⟨k, t, true, cols⟩ bad (L.drop k) k true (t + k + 2 * k) (by simp)
    (fun _ => ⟨rfl, by omega⟩) (by simp) (t + 3 * k + 2 * leadingEmpty (L.drop k)) (by simp only [if_true]; omega)
  simp only
  rw [sheet_rows s hs]
  simp only [← hL, h0, Nat.sub_zero]
  refine ⟨?_, ?_, h3⟩
  · rw [evCells_callback, evCells_append, evCells_replicate, h1]
    simp
  · rw [← List.singleton_append, evCallbacks_append, evCallbacks_append, evCallbacks_replicate, h2]
    simp [evCallbacks]
    omega

/-- Everything delivered by the XLSX reader when empty rows are not counted and nothing is skipped. -/
theorem sheet_drop (s : XSheet) (hs : s.Ok) (t : Nat) (cols : List Int) (L : List (List Item))
    (hL : L = s.rows.map (XRow.items styles isNull cols)) :
    let r := xlsxSheet styles isNull ⟨0, t, false, cols⟩ ⟨s.events, bad⟩
    let D := L.dropWhile List.isEmpty
    evCells r.1 = numberedFrom true 0 (winRows t 0 D) ∧
    evCallbacks r.1 = 1 + leadingEmpty L + (winRows t 0 D).length ∧
    r.2 = if t ≠ 0 ∧ t < D.length then .stopped else exitOf bad := by
  have h0 := runX_leading ⟨0, t, false, cols⟩ bad rfl rfl L t
  obtain ⟨h1, h2, h3⟩ := runX_window ⟨0, t, false, cols⟩ bad (L.dropWhile List.isEmpty) 0 false t (by simp)
    (by simp) (by simp) t (by simp)
  simp only
  rw [sheet_rows s hs]
  simp only [← hL, Nat.add_zero, h0]
  refine ⟨?_, ?_, ?_⟩
  · rw [evCells_callback, evCells_append, evCells_replicate, h1]
    simp
  · rw [← List.singleton_append, evCallbacks_append, evCallbacks_append, evCallbacks_replicate, h2]
    simp [evCallbacks]
    omega
  · rw [h3]
    simp

/-- Blank texts make no difference anywhere. -/
theorem run_blank (es : List Xml) : ∀ (st : XlsxState),
    runXlsx styles isNull o bad (es.filter Xml.solid) st =
      runXlsx styles isNull o bad es st := by
  induction es with
  | nil => intro st; rfl
  | cons e es ih =>
    intro st
    rw [List.filter_cons]
    cases e with
    | start t a =>
      simp only [Xml.solid, if_true, runXlsx]
      cases xlsxStart styles o.skipRows st t a with
      | error e => rfl
      | ok st' => exact ih st'
    | text s =>
      by_cases h : pyStrip s = []
      · rw [if_neg (by simpa [Xml.solid] using h), ih, runXlsx]
        have : xlsxText isNull o.skipRows o.skipCols st s = (st, []) := by simp [xlsxText, h]
        simp [this]
      · rw [if_pos (by simpa [Xml.solid] using h), runXlsx, runXlsx, ih]
    | close t =>
      simp only [Xml.solid, if_true, runXlsx]
      simp only [ih]

/-! ## Columns left out, cells -/

theorem items_skip (cols : List Int) (r : XRow) :
    XRow.items styles isNull cols r = (XRow.items styles isNull [] r).filter fun i => !cols.contains i.1 := by
  unfold XRow.items
  rw [List.filter_flatMap]
  congr 1
  funext c
  unfold XCell.items
  generalize (valueTexts tagC c.body).map pyStrip = l
  rw [List.filter_map, List.filter_filter]
  congr 1
  apply List.filter_congr
  intro t _
  by_cases h : c.col ∈ cols <;> simp [h]

theorem dropWhile_map_empty (f : List Item → List Item) (L : List (List Item))
    (h : ∀ is ∈ L, (f is).isEmpty = is.isEmpty) :
    (L.map f).dropWhile List.isEmpty = (L.dropWhile List.isEmpty).map f ∧
      leadingEmpty (L.map f) = leadingEmpty L := by
  induction L with
  | nil => simp
  | cons is L ih =>
    have hi := h is (by simp)
    obtain ⟨h1, h2⟩ := ih fun is his => h is (by simp [his])
    rw [List.map_cons, List.dropWhile_cons, List.dropWhile_cons, leadingEmpty_cons, leadingEmpty_cons, hi, h1, h2]
    cases is.isEmpty <;> simp

theorem leadingEmpty_add (L : List (List Item)) :
    leadingEmpty L + (L.dropWhile List.isEmpty).length = L.length := by
  unfold leadingEmpty
  rw [← List.length_append, List.takeWhile_append_dropWhile]

theorem numberedFrom_empty (n : Nat) (L : List (List Item)) (h : ∀ is ∈ L, is = []) :
    numberedFrom true n L = [] := by
  induction L generalizing n with
  | nil => rfl
  | cons is L ih =>
    rw [numberedFrom_cons, h is (by simp)]
    simp only [List.map_nil, List.nil_append]
    exact ih _ fun is his => h is (by simp [his])

/-- No value in events without a `v` element. -/
theorem valueTexts_none (es rest : List Xml) (h : ∀ e ∈ es, ∀ a, e ≠ .start tagV a) :
    ∀ (l : Str), l ≠ tagV → ∃ l', l' ≠ tagV ∧ valueTexts l (es ++ rest) = valueTexts l' rest := by
  induction es with
  | nil => intro l hl; exact ⟨l, hl, rfl⟩
  | cons e es ih =>
    intro l hl
    have ih := ih fun e he => h e (by simp [he])
    cases e with
    | start t a =>
      have ht : t ≠ tagV := fun hc => h (.start t a) (by simp) a (by rw [hc])
      simpa [valueTexts] using ih t ht
    | text s => simpa [valueTexts, hl] using ih l hl
    | close t => simpa [valueTexts] using ih l hl

theorem utf8_ascii : ∀ n < 128, String.utf8EncodeChar (Char.ofNat n) = [UInt8.ofNat n] := by
  decide +kernel

/-- An ASCII text and its bytes. -/
theorem utf8_bytes (b : Bytes) (h : ∀ x ∈ b, x.toNat < 128) :
    (b.map fun x => Char.ofNat x.toNat).flatMap String.utf8EncodeChar = b := by
  induction b with
  | nil => rfl
  | cons x b ih =>
    rw [List.map_cons, List.flatMap_cons, utf8_ascii _ (h x (by simp)), ih fun y hy => h y (by simp [hy])]
    simp

/-! ## Places -/

/-- The first `t + 1` rows are the cells in rows up to `t`. -/
theorem numberedFrom_take (L : List (List Item)) (t : Nat) : ∀ n,
    (numberedFrom true n L).filter (fun c => decide (c.row ≤ n + t)) = numberedFrom true n (L.take (t + 1)) := by
  induction L generalizing t with
  | nil => intro n; simp [numberedFrom_nil]
  | cons is L ih =>
    intro n
    rw [List.take_succ_cons, numberedFrom_cons, numberedFrom_cons, List.filter_append]
    simp only [Bool.not_true, Bool.and_false, Bool.false_eq_true, if_false]
    congr 1
    · rw [List.filter_eq_self]
      intro c hc
      obtain ⟨i, _, rfl⟩ := List.mem_map.1 hc
      simp
    · cases t with
      | zero =>
        simp only [List.take_zero, numberedFrom_nil, List.filter_eq_nil_iff]
        intro c hc
        have := numberedFrom_ge true L (n + 1) c hc
        simp
        omega
      | succ t =>
        rw [← ih t (n + 1)]
        apply List.filter_congr
        intro c _
        simp
        omega

theorem leadingEmpty_places (L X : List (List Item)) (h : L.map (List.map Prod.fst) = X.map (List.map Prod.fst)) :
    leadingEmpty L = leadingEmpty X := by
  induction L generalizing X with
  | nil => cases X with
    | nil => rfl
    | cons => simp at h
  | cons is L ih =>
    cases X with
    | nil => simp at h
    | cons x X =>
      simp only [List.map_cons, List.cons.injEq] at h
      have he : is.isEmpty = x.isEmpty := by
        have := congrArg List.isEmpty h.1
        simpa using this
      rw [leadingEmpty_cons, leadingEmpty_cons, ih X h.2, he]

theorem dropWhile_places (L X : List (List Item)) (h : L.map (List.map Prod.fst) = X.map (List.map Prod.fst)) :
    (L.dropWhile List.isEmpty).map (List.map Prod.fst) = (X.dropWhile List.isEmpty).map (List.map Prod.fst) := by
  induction L generalizing X with
  | nil => cases X with
    | nil => rfl
    | cons => simp at h
  | cons is L ih =>
    cases X with
    | nil => simp at h
    | cons x X =>
      have h' := h
      simp only [List.map_cons, List.cons.injEq] at h
      have he : is.isEmpty = x.isEmpty := by
        have := congrArg List.isEmpty h.1
        simpa using this
      rw [List.dropWhile_cons, List.dropWhile_cons, he]
      split
      · exact ih X h.2
      · exact h'

theorem numberedFrom_places (L X : List (List Item)) (h : L.map (List.map Prod.fst) = X.map (List.map Prod.fst)) :
    ∀ n, (numberedFrom true n L).map (fun c => (c.row, c.col)) =
      (numberedFrom true n X).map (fun c => (c.row, c.col)) := by
  induction L generalizing X with
  | nil => cases X with
    | nil => intro n; rfl
    | cons => simp at h
  | cons is L ih =>
    intro n
    cases X with
    | nil => simp at h
    | cons x X =>
      simp only [List.map_cons, List.cons.injEq] at h
      rw [numberedFrom_cons, numberedFrom_cons, List.map_append, List.map_append]
      simp only [Bool.not_true, Bool.and_false, Bool.false_eq_true, if_false]
      rw [ih X h.2, List.map_map, List.map_map]
      congr 1
      have := congrArg (List.map fun j : Int => (n, j)) h.1
      simpa [Function.comp_def] using this

end Rxls
