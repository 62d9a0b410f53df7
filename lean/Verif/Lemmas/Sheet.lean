import Verif.Spec.Sheet
import Mathlib.Data.List.Basic

/-! # Lemmas about the XLSB sheet loop -/

namespace Rxls

/-- The loop, row by row. -/
def runRows (f : Record → Py (Option Item)) (o : SheetArgs) (fin : Bool) :
    List SheetRow → Int → Bool → Py (List Ev)
  | [], row, _ => .ok (if fin = true ∧ (o.skipRows : Int) ≤ row then [.callback] else [])
  | r :: rs, row, empty =>
    let row := if !empty || o.keepEmpty then row + 1 else row
    if 0 < o.takeRows + o.skipRows ∧ ((o.takeRows + o.skipRows : Nat) : Int) < row then .ok []
    else if (o.skipRows : Int) ≤ row then
      match rowItems f r.cells with
      | .error e => .error e
      | .ok is =>
        match runRows f o fin rs row is.isEmpty with
        | .error e => .error e
        | .ok evs =>
          .ok (.callback :: (is.map fun i => Ev.cell ⟨(row - o.skipRows).toNat, i.1, i.2.1, i.2.2⟩) ++ evs)
    else runRows f o fin rs row true

variable {styles : List Bytes} {isNull : Str → Bool} {nulls : List Bytes} {o : SheetArgs}

/-- Cells of one row, then whatever follows. -/
theorem iter_cells (cells rest : List Record) (h : ∀ r ∈ cells, r.recId ≠ 0 ∧ r.recId ≠ 402) (row : Int)
    (hrow : (o.skipRows : Int) ≤ row) : ∀ (empty seen : Bool),
    iterXlsb styles isNull (fun _ => nulls) o (cells ++ rest) ⟨row, empty, seen⟩ =
      match rowItems (xlsbCell styles isNull nulls o.skipCols) cells with
      | .error e => .error e
      | .ok is =>
        match iterXlsb styles isNull (fun _ => nulls) o rest ⟨row, empty && is.isEmpty, seen || !is.isEmpty⟩ with
        | .error e => .error e
        | .ok evs =>
          .ok ((is.map fun i => Ev.cell ⟨(row - o.skipRows).toNat, i.1, i.2.1, i.2.2⟩) ++ evs) := by
  induction cells with
  | nil =>
    intro empty seen
    simp only [List.nil_append, rowItems, List.isEmpty_nil, Bool.and_true, Bool.not_true, Bool.or_false,
      List.map_nil]
    cases iterXlsb styles isNull (fun _ => nulls) o rest ⟨row, empty, seen⟩ <;> rfl
  | cons r cells ih =>
    intro empty seen
    have hr := h r (by simp)
    have hs : ¬ ((o.skipRows : Int) > row) := by omega
    rw [List.cons_append, iterXlsb]
    simp only [hr.1, hr.2, hs, if_false, rowItems]
    cases hc : xlsbCell styles isNull nulls o.skipCols r with
    | error e => rfl
    | ok x =>
      cases x with
      | none => exact ih (fun r hr => h r (by simp [hr])) empty seen
      | some i =>
        obtain ⟨c, x, v⟩ := i
        simp only
        rw [ih (fun r hr => h r (by simp [hr])) false true]
        cases hi : rowItems (xlsbCell styles isNull nulls o.skipCols) cells with
        | error e => rfl
        | ok is =>
          simp only [Bool.false_and, Bool.true_or, List.isEmpty_cons, Bool.and_false, Bool.not_false,
            Bool.or_true]
          cases iterXlsb styles isNull (fun _ => nulls) o rest ⟨row, false, true⟩ <;> simp

/-- Records without a row record are passed over while the row is before the window. -/
theorem iter_skip (cells rest : List Record) (h : ∀ r ∈ cells, r.recId ≠ 0) (row : Int)
    (hrow : row < (o.skipRows : Int)) (empty seen : Bool) :
    iterXlsb styles isNull (fun _ => nulls) o (cells ++ rest) ⟨row, empty, seen⟩ =
      iterXlsb styles isNull (fun _ => nulls) o rest ⟨row, empty, seen⟩ := by
  induction cells with
  | nil => rfl
  | cons r cells ih =>
    rw [List.cons_append, iterXlsb]
    have hs : (o.skipRows : Int) > row := hrow
    simp only [h r (by simp), hs, if_false, if_true]
    exact ih fun r hr => h r (by simp [hr])

theorem iter_rows (rows : List SheetRow) (tail : List Record)
    (hc : ∀ row ∈ rows, ∀ r ∈ row.cells, r.recId ≠ 0 ∧ r.recId ≠ 402)
    (ht : tail = [] ∨ ∃ e post, tail = e :: post ∧ e.recId = 402) :
    ∀ (row : Int) (empty seen : Bool),
    (((o.skipRows : Int) ≤ row) ∨ (o.skipRows = 0 ∧ rows ≠ [] ∧ empty = false) ∨ (∀ r ∈ tail, r.recId ≠ 0)) →
    (o.skipRows = 0 → rows ≠ [] → empty = true → 0 ≤ row) → -1 ≤ row →
    iterXlsb styles isNull (fun _ => nulls) o (rows.flatMap (fun r => ⟨0, r.hdr⟩ :: r.cells) ++ tail)
      ⟨row, empty, seen⟩ =
    runRows (xlsbCell styles isNull nulls o.skipCols) o (!tail.isEmpty) rows row empty := by
  induction rows with
  | nil =>
    intro row empty seen hq _ _
    simp only [List.flatMap_nil, List.nil_append, runRows]
    rcases ht with rfl | ⟨e, post, rfl, he⟩
    · simp [iterXlsb]
    · by_cases hs : (o.skipRows : Int) ≤ row
      · rw [iterXlsb]
        have : ¬ ((o.skipRows : Int) > row) := by omega
        simp [he, hs, this]
      · have hq' : ∀ r ∈ e :: post, r.recId ≠ 0 := by
          rcases hq with h | h | h
          · omega
          · simp at h
          · exact h
        have := iter_skip (styles := styles) (isNull := isNull) (nulls := nulls) (o := o) (e :: post) [] hq' row
          (by omega) empty seen
        rw [List.append_nil] at this
        rw [this]
        simp [iterXlsb, hs]
  | cons r rows ih =>
    intro row empty seen hq he hlow
    have hc' : ∀ row ∈ rows, ∀ r ∈ row.cells, r.recId ≠ 0 ∧ r.recId ≠ 402 :=
      fun row hr => hc row (by simp [hr])
    have hcr := hc r (by simp)
    simp only [List.flatMap_cons, List.cons_append, List.append_assoc]
    rw [iterXlsb, runRows]
    simp only [if_true]
    set row' : Int := if (!empty || o.keepEmpty) = true then row + 1 else row with hrow'
    have hge : row ≤ row' := by rw [hrow']; split <;> omega
    by_cases hbrk : 0 < o.takeRows + o.skipRows ∧ ((o.takeRows + o.skipRows : Nat) : Int) < row'
    · simp only [hbrk, and_self, if_true]
    · simp only [hbrk, if_false]
      by_cases hs : (o.skipRows : Int) ≤ row'
      · simp only [hs, if_true]
        rw [iter_cells r.cells _ hcr row' hs]
        cases hi : rowItems (xlsbCell styles isNull nulls o.skipCols) r.cells with
        | error e => rfl
        | ok is =>
          simp only [Bool.true_and]
          rw [ih hc' row' is.isEmpty _ (Or.inl hs) (by intros; omega) (by omega)]
          cases runRows (xlsbCell styles isNull nulls o.skipCols) o (!tail.isEmpty) rows row' is.isEmpty <;> rfl
      · simp only [hs, if_false]
        rw [iter_skip r.cells _ (fun r hr => (hcr r hr).1) row' (by omega)]
        have hsk : o.skipRows ≠ 0 := by
          intro h0
          have h0' : (o.skipRows : Int) = 0 := by omega
          cases hem : empty with
          | true => have := he h0 (by simp) hem; omega
          | false => simp [hem] at hrow'; omega
        have hq' : ∀ r ∈ tail, r.recId ≠ 0 := by
          rcases hq with h | h | h
          · omega
          · exact absurd h.1 hsk
          · exact h
        rw [ih hc' row' true _ (Or.inr (Or.inr hq')) (by intro h; exact absurd h hsk) (by omega)]
        cases runRows (xlsbCell styles isNull nulls o.skipCols) o (!tail.isEmpty) rows row' true <;> rfl

/-- The loop on a whole stream. -/
theorem iter_parts (p : SheetParts) (hp : p.Ok) (hq : o.skipRows = 0 ∨ ∀ r ∈ p.tail, r.recId ≠ 0) :
    iterXlsb styles isNull (fun _ => nulls) o p.records {} =
      runRows (xlsbCell styles isNull nulls o.skipCols) o (!p.tail.isEmpty) p.rows (-1) false := by
  rw [SheetParts.records, iter_skip p.pre _ hp.pre (-1) (by omega)]
  apply iter_rows p.rows p.tail hp.cells hp.tail
  · rcases hq with h | h
    · by_cases hr : p.rows = []
      · right; right
        rw [hp.rows hr]
        simp
      · exact Or.inr (Or.inl ⟨h, hr, rfl⟩)
    · exact Or.inr (Or.inr h)
  · intro _ _ h; simp at h
  · omega

/-- Every stream has such a decomposition. -/
theorem split_stream (rs : List Record) : ∃ p : SheetParts, p.Ok ∧ p.records = rs := by
  have body : ∀ rs : List Record, ∃ (cells : List Record) (rows : List SheetRow) (tail : List Record),
      (∀ r ∈ cells, r.recId ≠ 0 ∧ r.recId ≠ 402) ∧
      (∀ row ∈ rows, ∀ r ∈ row.cells, r.recId ≠ 0 ∧ r.recId ≠ 402) ∧
      (tail = [] ∨ ∃ e post, tail = e :: post ∧ e.recId = 402) ∧
      rs = cells ++ (rows.flatMap (fun r => ⟨0, r.hdr⟩ :: r.cells) ++ tail) := by
    intro rs
    induction rs with
    | nil => exact ⟨[], [], [], by simp, by simp, Or.inl rfl, rfl⟩
    | cons r rs ih =>
      obtain ⟨cells, rows, tail, h1, h2, h3, h4⟩ := ih
      by_cases h0 : r.recId = 0
      · refine ⟨[], ⟨r.data, cells⟩ :: rows, tail, by simp, ?_, h3, ?_⟩
        · intro row hr
          rcases List.mem_cons.1 hr with rfl | hr
          · exact h1
          · exact h2 row hr
        · obtain ⟨i, d⟩ := r
          simp only at h0
          subst h0
          simp [h4]
      · by_cases h4' : r.recId = 402
        · exact ⟨[], [], r :: rs, by simp, by simp, Or.inr ⟨r, rs, rfl, h4'⟩, by simp⟩
        · refine ⟨r :: cells, rows, tail, ?_, h2, h3, by simp [h4]⟩
          intro x hx
          rcases List.mem_cons.1 hx with rfl | hx
          · exact ⟨h0, h4'⟩
          · exact h1 x hx
  induction rs with
  | nil => exact ⟨⟨[], [], []⟩, ⟨by simp, by simp, by simp, by simp⟩, rfl⟩
  | cons r rs ih =>
    by_cases h0 : r.recId = 0
    · obtain ⟨cells, rows, tail, h1, h2, h3, h4⟩ := body rs
      refine ⟨⟨[], ⟨r.data, cells⟩ :: rows, tail⟩, ⟨by simp, ?_, h3, by simp⟩, ?_⟩
      · intro row hr
        rcases List.mem_cons.1 hr with rfl | hr
        · exact h1
        · exact h2 row hr
      · obtain ⟨i, d⟩ := r
        simp only at h0
        subst h0
        simp [SheetParts.records, h4]
    · obtain ⟨p, hp, hr⟩ := ih
      refine ⟨⟨r :: p.pre, p.rows, p.tail⟩, ⟨?_, hp.cells, hp.tail, hp.rows⟩, ?_⟩
      · intro x hx
        rcases List.mem_cons.1 hx with rfl | hx
        · exact h0
        · exact hp.pre x hx
      · rw [← hr]
        simp [SheetParts.records]

/-! ## Row numbers, windows, callbacks -/

/-- `numbered` starting from row `n`. -/
def numberedFrom (keepEmpty : Bool) (n : Nat) (rows : List (List Item)) : List Cell :=
  ((if keepEmpty then rows else rows.filter (· ≠ [])).zipIdx n).flatMap fun p =>
    p.1.map fun i => ⟨p.2, i.1, i.2.1, i.2.2⟩

theorem numberedFrom_nil (keep : Bool) (n : Nat) : numberedFrom keep n [] = [] := by
  cases keep <;> rfl

theorem numberedFrom_cons (keep : Bool) (n : Nat) (is : List Item) (L : List (List Item)) :
    numberedFrom keep n (is :: L) =
      (is.map fun i => (⟨n, i.1, i.2.1, i.2.2⟩ : Cell)) ++
        numberedFrom keep (if is.isEmpty && !keep then n else n + 1) L := by
  cases keep with
  | true => simp [numberedFrom, List.zipIdx_cons]
  | false =>
    cases is with
    | nil => simp [numberedFrom]
    | cons i is => simp [numberedFrom, List.zipIdx_cons]

theorem numberedFrom_ge (keep : Bool) (L : List (List Item)) : ∀ (n : Nat), ∀ c ∈ numberedFrom keep n L, n ≤ c.row := by
  induction L with
  | nil => intro n c hc; simp [numberedFrom_nil] at hc
  | cons is L ih =>
    intro n c hc
    rw [numberedFrom_cons, List.mem_append] at hc
    rcases hc with h | h
    · obtain ⟨i, _, rfl⟩ := List.mem_map.1 h
      exact Nat.le_refl _
    · have := ih _ c h
      split at this <;> omega

/-- The number the next row with a value gets. -/
def nextRow (keep : Bool) (row : Int) (empty : Bool) : Int := if !empty || keep then row + 1 else row

theorem evCells_append (a b : List Ev) : evCells (a ++ b) = evCells a ++ evCells b := by
  simp [evCells]

theorem evCells_callback (a : List Ev) : evCells (.callback :: a) = evCells a := by
  simp [evCells]

theorem evCells_map {α : Type} (l : List α) (g : α → Cell) : evCells (l.map fun i => .cell (g i)) = l.map g := by
  induction l with
  | nil => rfl
  | cons a l ih => simp [evCells]

/-- Without restrictions: exactly the numbered values, or the first exception. -/
theorem runRows_plain (f : Record → Py (Option Item)) (fin : Bool) (keep : Bool) (cols : List Int)
    (rows : List SheetRow) : ∀ (row : Int) (empty : Bool) (n : Nat), (n : Int) = nextRow keep row empty →
    (runRows f ⟨0, 0, keep, cols⟩ fin rows row empty).map evCells =
      (sheetItems f rows).map (numberedFrom keep n) := by
  induction rows with
  | nil =>
    intro row empty n _
    simp only [runRows, sheetItems, Except.map, numberedFrom_nil]
    split <;> simp [evCells]
  | cons r rows ih =>
    intro row empty n hn
    rw [runRows, sheetItems]
    simp only [Nat.add_zero, Nat.lt_irrefl, false_and, if_false]
    rw [show (if (!empty || keep) = true then row + 1 else row) = (n : Int) from hn.symm]
    simp only [Nat.cast_zero, Int.natCast_nonneg, if_true]
    cases hi : rowItems f r.cells with
    | error e => rfl
    | ok is =>
      simp only
      have := ih n is.isEmpty (if is.isEmpty && !keep then n else n + 1) (by
        cases h1 : is.isEmpty <;> cases keep <;> simp [nextRow])
      cases hr : runRows f ⟨0, 0, keep, cols⟩ fin rows n is.isEmpty with
      | error e =>
        rw [hr] at this
        cases hl : sheetItems f rows with
        | error e' => rw [hl] at this; simpa [Except.map] using this
        | ok L => rw [hl] at this; simp [Except.map] at this
      | ok evs =>
        rw [hr] at this
        cases hl : sheetItems f rows with
        | error e' => rw [hl] at this; simp [Except.map] at this
        | ok L =>
          rw [hl] at this
          simp only [Except.map, Except.ok.injEq] at this ⊢
          rw [List.cons_append, evCells_callback, evCells_append, evCells_map, numberedFrom_cons, this]
          simp

/-- The window of rows that a pair of limits lets through. -/
def inWindow (k t : Nat) (row : Nat) : Bool := decide (k ≤ row) && (decide (t + k = 0) || decide (row ≤ t + k))

/-- With limits: exactly the cells of the window, renumbered. -/
theorem runRows_window (f : Record → Py (Option Item)) (fin : Bool) (k t : Nat) (keep : Bool)
    (cols : List Int) (hk : k = 0 ∨ keep = true) (rows : List SheetRow) :
    ∀ (row : Int) (empty : Bool) (n : Nat) (L : List (List Item)), (n : Int) = nextRow keep row empty →
    sheetItems f rows = .ok L →
    ∃ evs, runRows f ⟨k, t, keep, cols⟩ fin rows row empty = .ok evs ∧
      evCells evs = ((numberedFrom keep n L).filter fun c => inWindow k t c.row).map fun c =>
        { c with row := c.row - k } := by
  induction rows with
  | nil =>
    intro row empty n L _ hL
    simp only [sheetItems, Except.ok.injEq] at hL
    subst hL
    refine ⟨_, rfl, ?_⟩
    simp only [numberedFrom_nil, List.filter_nil, List.map_nil]
    split <;> simp [evCells]
  | cons r rows ih =>
    intro row empty n L hn hL
    rw [sheetItems] at hL
    cases hi : rowItems f r.cells with
    | error e => simp [hi] at hL
    | ok is =>
      cases hl : sheetItems f rows with
      | error e => simp [hi, hl] at hL
      | ok L' =>
        simp only [hi, hl, Except.ok.injEq] at hL
        subst hL
        rw [runRows]
        simp only
        rw [show (if (!empty || keep) = true then row + 1 else row) = (n : Int) from hn.symm]
        by_cases hbrk : 0 < t + k ∧ ((t + k : Nat) : Int) < n
        · simp only [hbrk, and_self, if_true]
          refine ⟨[], rfl, ?_⟩
          have : (numberedFrom keep n (is :: L')).filter (fun c => inWindow k t c.row) = [] := by
            rw [List.filter_eq_nil_iff]
            intro c hc
            have := numberedFrom_ge keep _ n c hc
            simp [inWindow]
            omega
          rw [this]
          rfl
        · simp only [hbrk, if_false]
          by_cases hs : (k : Int) ≤ n
          · simp only [hs, if_true, hi]
            obtain ⟨evs, h1, h2⟩ := ih n is.isEmpty (if is.isEmpty && !keep then n else n + 1) L' (by
              cases h1 : is.isEmpty <;> cases keep <;> simp [nextRow]) hl
            rw [h1]
            refine ⟨_, rfl, ?_⟩
            rw [List.cons_append, evCells_callback, evCells_append, evCells_map, h2, numberedFrom_cons,
              List.filter_append, List.map_append]
            congr 1
            have : (is.map fun i => (⟨n, i.1, i.2.1, i.2.2⟩ : Cell)).filter (fun c => inWindow k t c.row) =
                is.map fun i => (⟨n, i.1, i.2.1, i.2.2⟩ : Cell) := by
              rw [List.filter_eq_self]
              intro c hc
              obtain ⟨i, _, rfl⟩ := List.mem_map.1 hc
              simp [inWindow]
              omega
            rw [this, List.map_map]
            apply List.map_congr_left
            intro i _
            simp only [Function.comp_def, Cell.mk.injEq, and_true]
            omega
          · simp only [hs, if_false]
            have hkeep : keep = true := by
              rcases hk with h | h
              · omega
              · exact h
            obtain ⟨evs, h1, h2⟩ := ih n true (n + 1) L' (by simp [nextRow, hkeep]) hl
            refine ⟨evs, h1, ?_⟩
            rw [h2, numberedFrom_cons, List.filter_append]
            have : (is.map fun i => (⟨n, i.1, i.2.1, i.2.2⟩ : Cell)).filter (fun c => inWindow k t c.row) =
                [] := by
              rw [List.filter_eq_nil_iff]
              intro c hc
              obtain ⟨i, _, rfl⟩ := List.mem_map.1 hc
              simp [inWindow]
              omega
            rw [this]
            simp [hkeep]

/-- Rows skipped while empty rows are not counted: the row number never moves. -/
theorem runRows_stuck (f : Record → Py (Option Item)) (fin : Bool) (k t : Nat) (hk : 0 < k) (cols : List Int)
    (rows : List SheetRow) : ∀ (row : Int) (empty : Bool), nextRow false row empty = 0 → row < k →
    runRows f ⟨k, t, false, cols⟩ fin rows row empty = .ok [] := by
  induction rows with
  | nil =>
    intro row empty _ hrow
    simp only [runRows]
    rw [if_neg (by omega)]
  | cons r rows ih =>
    intro row empty hn _
    rw [runRows]
    simp only
    rw [show (if (!empty || false) = true then row + 1 else row) = (0 : Int) from hn]
    have h1 : ¬ (0 < t + k ∧ ((t + k : Nat) : Int) < 0) := by omega
    have h2 : ¬ ((k : Int) ≤ 0) := by omega
    simp only [h1, h2, if_false]
    exact ih 0 true (by simp [nextRow]) (by omega)

theorem evCallbacks_append (a b : List Ev) : evCallbacks (a ++ b) = evCallbacks a + evCallbacks b := by
  simp [evCallbacks, List.count_append]

theorem evCallbacks_map {α : Type} (l : List α) (g : α → Cell) :
    evCallbacks (l.map fun i => .cell (g i)) = 0 := by
  induction l with
  | nil => rfl
  | cons a l ih => simpa [evCallbacks] using ih

/-- Callbacks without restrictions. -/
theorem runRows_callbacks (f : Record → Py (Option Item)) (fin : Bool) (keep : Bool) (cols : List Int)
    (rows : List SheetRow) : ∀ (row : Int) (empty : Bool) (evs : List Ev), 0 ≤ nextRow keep row empty →
    runRows f ⟨0, 0, keep, cols⟩ fin rows row empty = .ok evs →
    evCallbacks evs = rows.length + (if fin = true ∧ (rows ≠ [] ∨ 0 ≤ row) then 1 else 0) := by
  induction rows with
  | nil =>
    intro row empty evs _ h
    simp only [runRows, Except.ok.injEq] at h
    subst h
    by_cases h0 : 0 ≤ row <;> cases fin <;> simp [evCallbacks, h0]
  | cons r rows ih =>
    intro row empty evs hn h
    rw [runRows] at h
    simp only [Nat.add_zero, Nat.lt_irrefl, false_and, if_false] at h
    rw [show (if (!empty || keep) = true then row + 1 else row) = nextRow keep row empty from rfl] at h
    simp only [Nat.cast_zero, hn, if_true] at h
    cases hi : rowItems f r.cells with
    | error e => simp [hi] at h
    | ok is =>
      simp only [hi] at h
      cases hr : runRows f ⟨0, 0, keep, cols⟩ fin rows (nextRow keep row empty) is.isEmpty with
      | error e => simp [hr] at h
      | ok evs' =>
        simp only [hr, Except.ok.injEq] at h
        subst h
        have := ih _ _ _ (by rw [nextRow]; split <;> omega) hr
        rw [List.cons_append, evCallbacks, List.count_cons, ← evCallbacks, evCallbacks_append, evCallbacks_map,
          this]
        cases fin <;> simp [hn]

/-- Callbacks with limits, all rows counted: one per row of the window, and one at the end if it is reached. -/
theorem runRows_callbacks_window (f : Record → Py (Option Item)) (fin : Bool) (k t : Nat) (cols : List Int)
    (rows : List SheetRow) : ∀ (row : Int) (empty : Bool) (n : Nat) (evs : List Ev), (n : Int) = row + 1 →
    runRows f ⟨k, t, true, cols⟩ fin rows row empty = .ok evs →
    evCallbacks evs = ((List.range' n rows.length).filter (inWindow k t)).length +
      (if fin = true ∧ k < n + rows.length ∧ (t + k = 0 ∨ rows = [] ∨ n + rows.length ≤ t + k + 1) then 1 else 0) := by
  induction rows with
  | nil =>
    intro row empty n evs hn h
    simp only [runRows, Except.ok.injEq] at h
    subst h
    have : (k : Int) ≤ row ↔ k < n := by omega
    cases fin <;> by_cases h0 : k < n <;> simp [evCallbacks, this, h0]
  | cons r rows ih =>
    intro row empty n evs hn h
    rw [runRows] at h
    simp only [Bool.or_true, if_true] at h
    rw [← hn] at h
    simp only [List.length_cons, List.range'_succ]
    by_cases hbrk : 0 < t + k ∧ ((t + k : Nat) : Int) < n
    · simp only [hbrk, and_self, if_true, Except.ok.injEq] at h
      subst h
      have h1 : ((n :: List.range' (n + 1) rows.length).filter (inWindow k t)) = [] := by
        rw [List.filter_eq_nil_iff]
        intro i hi
        have : n ≤ i := by
          rcases List.mem_cons.1 hi with rfl | hi
          · exact Nat.le_refl _
          · have := List.mem_range'_1.1 hi; omega
        simp [inWindow]
        omega
      rw [h1, if_neg (by simp; omega)]
      rfl
    · simp only [hbrk, if_false] at h
      by_cases hs : (k : Int) ≤ n
      · simp only [hs, if_true] at h
        cases hi : rowItems f r.cells with
        | error e => simp [hi] at h
        | ok is =>
          simp only [hi] at h
          cases hr : runRows f ⟨k, t, true, cols⟩ fin rows n is.isEmpty with
          | error e => simp [hr] at h
          | ok evs' =>
            simp only [hr, Except.ok.injEq] at h
            subst h
            have := ih n _ (n + 1) _ (by omega) hr
            rw [List.cons_append, evCallbacks, List.count_cons, ← evCallbacks, evCallbacks_append,
              evCallbacks_map, this]
            have hw : inWindow k t n = true := by simp [inWindow]; omega
            rw [List.filter_cons_of_pos hw]
            have e : (k < n + 1 + rows.length ∧ (t + k = 0 ∨ rows = [] ∨ n + 1 + rows.length ≤ t + k + 1)) ↔
                (k < n + (rows.length + 1) ∧ (t + k = 0 ∨ r :: rows = [] ∨ n + (rows.length + 1) ≤ t + k + 1)) := by
              cases rows with
              | nil => simp; omega
              | cons _ _ => simp; omega
            simp only [e, List.length_cons, beq_self_eq_true, if_true]
            omega
      · simp only [hs, if_false] at h
        have := ih n true (n + 1) evs (by omega) h
        rw [this]
        have hw : ¬ inWindow k t n = true := by simp [inWindow]; omega
        rw [List.filter_cons_of_neg hw]
        have e : (k < n + 1 + rows.length ∧ (t + k = 0 ∨ rows = [] ∨ n + 1 + rows.length ≤ t + k + 1)) ↔
            (k < n + (rows.length + 1) ∧ (t + k = 0 ∨ r :: rows = [] ∨ n + (rows.length + 1) ≤ t + k + 1)) := by
          cases rows with
          | nil => simp; omega
          | cons _ _ => simp; omega
        simp only [e]

/-! ## Windows of numbered rows -/

theorem numberedFrom_append (n : Nat) (A B : List (List Item)) :
    numberedFrom true n (A ++ B) = numberedFrom true n A ++ numberedFrom true (n + A.length) B := by
  simp [numberedFrom, List.zipIdx_append]

theorem numberedFrom_lt (L : List (List Item)) : ∀ (n : Nat), ∀ c ∈ numberedFrom true n L, c.row < n + L.length := by
  induction L with
  | nil => intro n c hc; simp [numberedFrom_nil] at hc
  | cons is L ih =>
    intro n c hc
    rw [numberedFrom_cons, List.mem_append] at hc
    rcases hc with h | h
    · obtain ⟨i, _, rfl⟩ := List.mem_map.1 h
      simp
    · have := ih _ c h
      simp at this ⊢
      omega

theorem numberedFrom_shift (k : Nat) (L : List (List Item)) : ∀ n : Nat,
    (numberedFrom true (n + k) L).map (fun c => { c with row := c.row - k }) = numberedFrom true n L := by
  induction L with
  | nil => intro n; simp [numberedFrom_nil]
  | cons is L ih =>
    intro n
    rw [numberedFrom_cons, numberedFrom_cons, List.map_append, List.map_map]
    congr 1
    · simp [Function.comp_def]
    · simp only [Bool.not_true, Bool.and_false, Bool.false_eq_true, if_false]
      rw [← ih (n + 1)]
      congr 2
      omega

/-- The window of rows as rows. -/
theorem window_rows (k t : Nat) (h : 0 < t + k) (L : List (List Item)) :
    ((numberedFrom true 0 L).filter fun c => inWindow k t c.row).map (fun c => { c with row := c.row - k }) =
      numberedFrom true 0 ((L.drop k).take (t + 1)) := by
  have hsplit : L = L.take k ++ ((L.drop k).take (t + 1) ++ (L.drop k).drop (t + 1)) := by simp
  by_cases hk : k ≤ L.length
  · have hlk : (L.take k).length = k := by simp [hk]
    conv_lhs => rw [hsplit]
    rw [numberedFrom_append, numberedFrom_append, List.filter_append, List.filter_append, hlk]
    have h1 : (numberedFrom true 0 (L.take k)).filter (fun c => inWindow k t c.row) = [] := by
      rw [List.filter_eq_nil_iff]
      intro c hc
      have := numberedFrom_lt _ _ c hc
      simp [inWindow]
      omega
    have h2 : (numberedFrom true (0 + k) ((L.drop k).take (t + 1))).filter (fun c => inWindow k t c.row) =
        numberedFrom true (0 + k) ((L.drop k).take (t + 1)) := by
      rw [List.filter_eq_self]
      intro c hc
      have h3 := numberedFrom_lt _ _ c hc
      have h4 := numberedFrom_ge _ _ _ c hc
      have h5 : ((L.drop k).take (t + 1)).length ≤ t + 1 := by simp
      simp [inWindow]
      omega
    have h3 : (numberedFrom true (0 + k + ((L.drop k).take (t + 1)).length) ((L.drop k).drop (t + 1))).filter
        (fun c => inWindow k t c.row) = [] := by
      by_cases hl : (L.drop k).length ≤ t + 1
      · rw [List.drop_eq_nil_of_le hl, numberedFrom_nil]; rfl
      · rw [List.filter_eq_nil_iff]
        intro c hc
        have h4 := numberedFrom_ge _ _ _ c hc
        have h5 : ((L.drop k).take (t + 1)).length = t + 1 := by
          rw [List.length_take]; omega
        rw [h5] at h4
        simp [inWindow]
        omega
    rw [h1, h2, h3, List.nil_append, List.append_nil, numberedFrom_shift]
  · have hd : L.drop k = [] := List.drop_eq_nil_of_le (by omega)
    rw [hd]
    have : (numberedFrom true 0 L).filter (fun c => inWindow k t c.row) = [] := by
      rw [List.filter_eq_nil_iff]
      intro c hc
      have := numberedFrom_lt _ _ c hc
      simp [inWindow]
      omega
    rw [this]
    simp [numberedFrom_nil]

/-! ## Dropping columns -/

theorem xlsbCell_skip (cols : List Int) (r : Record) (x : Option Item)
    (h : xlsbCell styles isNull nulls [] r = .ok x) :
    xlsbCell styles isNull nulls cols r = .ok (x.filter fun i => !cols.contains i.1) := by
  unfold xlsbCell at h ⊢
  cases hu : unpackI (pySlice r.data 0 4) with
  | error e => simp [hu] at h
  | ok col =>
    simp only [hu, List.isEmpty_nil, Bool.not_true, Bool.false_and, Bool.false_eq_true, if_false] at h
    by_cases hc : (!cols.isEmpty && cols.contains col) = true
    · simp only [hc, if_true]
      have hx : ∀ i, x = some i → i.1 = col := by
        rintro i rfl
        repeat' split at h
        all_goals simp_all
        all_goals rw [← h]
      congr 1
      cases x with
      | none => rfl
      | some i =>
        have := hx i rfl
        simp only [Bool.and_eq_true] at hc
        rw [Option.filter, this, hc.2]
        rfl
    · have hx : ∀ i, x = some i → i.1 = col := by
        rintro i rfl
        repeat' split at h
        all_goals simp_all
        all_goals rw [← h]
      have hn : cols.contains col = false := by
        cases cols with
        | nil => rfl
        | cons a l => simpa using hc
      simp only [hc, if_false, Bool.false_eq_true]
      have : x.filter (fun i => !cols.contains i.1) = x := by
        cases x with
        | none => rfl
        | some i => rw [Option.filter, hx i rfl, hn]; rfl
      rw [this]
      exact h

theorem rowItems_skip (cols : List Int) (rs : List Record) : ∀ (is : List Item),
    rowItems (xlsbCell styles isNull nulls []) rs = .ok is →
    rowItems (xlsbCell styles isNull nulls cols) rs = .ok (is.filter fun i => !cols.contains i.1) := by
  induction rs with
  | nil => intro is h; simp only [rowItems, Except.ok.injEq] at h ⊢; subst h; rfl
  | cons r rs ih =>
    intro is h
    rw [rowItems] at h ⊢
    cases hc : xlsbCell styles isNull nulls [] r with
    | error e => simp [hc] at h
    | ok x =>
      rw [xlsbCell_skip cols r x hc]
      cases x with
      | none => simp only [hc] at h; simpa using ih is h
      | some i =>
        cases hr : rowItems (xlsbCell styles isNull nulls []) rs with
        | error e => simp [hc, hr] at h
        | ok is' =>
          simp only [hc, hr, Except.ok.injEq] at h
          subst h
          rw [ih is' hr]
          by_cases hi : i.1 ∈ cols <;> simp [Option.filter, hi, List.filter_cons]

theorem sheetItems_skip (cols : List Int) (rows : List SheetRow) : ∀ (L : List (List Item)),
    sheetItems (xlsbCell styles isNull nulls []) rows = .ok L →
    sheetItems (xlsbCell styles isNull nulls cols) rows =
      .ok (L.map fun is => is.filter fun i => !cols.contains i.1) := by
  induction rows with
  | nil => intro L h; simp [sheetItems] at h ⊢; subst h; rfl
  | cons r rows ih =>
    intro L h
    rw [sheetItems] at h ⊢
    cases hi : rowItems (xlsbCell styles isNull nulls []) r.cells with
    | error e => simp [hi] at h
    | ok is =>
      cases hs : sheetItems (xlsbCell styles isNull nulls []) rows with
      | error e => simp [hi, hs] at h
      | ok L' =>
        simp only [hi, hs, Except.ok.injEq] at h
        subst h
        rw [rowItems_skip cols _ _ hi, ih L' hs]
        rfl

/-- Dropping columns commutes with numbering when no row becomes empty, or empty rows are counted. -/
theorem numberedFrom_filter (keep : Bool) (q : Int → Bool) (L : List (List Item))
    (h : keep = true ∨ ∀ is ∈ L, is ≠ [] → (is.filter fun i => q i.1) ≠ []) : ∀ n,
    numberedFrom keep n (L.map fun is => is.filter fun i => q i.1) =
      (numberedFrom keep n L).filter fun c => q c.col := by
  induction L with
  | nil => intro n; simp [numberedFrom_nil]
  | cons is L ih =>
    intro n
    rw [List.map_cons, numberedFrom_cons, numberedFrom_cons, List.filter_append, List.filter_map]
    have ih' := ih (h.imp id fun h is hi => h is (by simp [hi]))
    have hem : ((is.filter fun i => q i.1).isEmpty && !keep) = (is.isEmpty && !keep) := by
      rcases h with rfl | h
      · simp
      · congr 1
        cases is with
        | nil => rfl
        | cons a l =>
          have := h (a :: l) (by simp) (by simp)
          simpa [List.isEmpty_iff] using this
    rw [hem, ih']
    rfl

end Rxls
