import Verif.Lemmas.Delivered
import Verif.Spec.HGrid

/-! # Null keys that are known from the first delivered cell on -/

namespace Rxls

/-- The item is a shared string with a null key. -/
def itemNull (N : List Bytes) (i : Item) : Bool :=
  i.2.1 = 0x11 && match i.2.2 with
    | .bytes b => N.contains b
    | _ => false

variable {styles : List Bytes} {isNull : Str → Bool} {N : List Bytes} {o : SheetArgs}

theorem xlsbCell_nulls (cols : List Int) (r : Record) (x : Option Item)
    (h : xlsbCell styles isNull [] cols r = .ok x) :
    xlsbCell styles isNull N cols r = .ok (x.filter fun i => !itemNull N i) := by
  unfold xlsbCell at h ⊢
  cases hu : unpackI (pySlice r.data 0 4) with
  | error e => simp [hu] at h
  | ok col =>
    simp only [hu] at h ⊢
    split at h
    · injection h with h
      subst h
      rename_i hc
      rw [if_pos hc]
      rfl
    · rename_i hc
      rw [if_neg hc]
      split at h
      · rename_i h6
        rw [if_pos h6]
        cases hu2 : unpackI (pySlice r.data 8 12) with
        | error e => simp [hu2] at h
        | ok n =>
          simp only [hu2] at h ⊢
          cases hd : decodeUtf16 (pySlice r.data 12 (n * 2 + 12)) with
          | error e => simp [hd] at h
          | ok s =>
            simp only [hd] at h ⊢
            split at h <;> rename_i hn <;> injection h with h <;> subst h
            · simp [hn]
            · simp [hn, Option.filter, itemNull]
      · rename_i h6
        rw [if_neg h6]
        split at h
        · rename_i h5
          rw [if_pos h5]
          injection h with h
          subst h
          simp only [Option.filter, itemNull]
          split <;> simp [TYPE_NUMERIC, REPR_TEMPORAL, REPR_PREPARED]
        · rename_i h5
          rw [if_neg h5]
          split at h
          · rename_i h4
            rw [if_pos h4]
            injection h with h
            subst h
            simp [Option.filter, itemNull, TYPE_NUMERIC, REPR_BOOLEAN]
          · rename_i h4
            rw [if_neg h4]
            split at h
            · rename_i h7
              rw [if_pos h7]
              simp only [List.contains_nil, Bool.false_eq_true, if_false] at h
              injection h with h
              subst h
              simp only [Option.filter, itemNull, TYPE_STRING, REPR_SHARED]
              by_cases hN : pySlice r.data 8 12 ∈ N
              · simp [hN]
              · simp [hN]
            · rename_i h7
              rw [if_neg h7]
              injection h with h
              subst h
              simp only [Option.filter, itemNull]
              split <;> simp [TYPE_NUMERIC, REPR_TEMPORAL, REPR_RKNUMBER]

theorem rowItems_nulls (cols : List Int) (rs : List Record) : ∀ (is : List Item),
    rowItems (xlsbCell styles isNull [] cols) rs = .ok is →
    rowItems (xlsbCell styles isNull N cols) rs = .ok (is.filter fun i => !itemNull N i) := by
  induction rs with
  | nil => intro is h; simp only [rowItems, Except.ok.injEq] at h ⊢; subst h; rfl
  | cons r rs ih =>
    intro is h
    rw [rowItems] at h ⊢
    cases hc : xlsbCell styles isNull [] cols r with
    | error e => simp [hc] at h
    | ok x =>
      rw [xlsbCell_nulls cols r x hc]
      cases x with
      | none =>
        simp only [hc, Option.filter_none] at h ⊢
        exact ih is h
      | some i =>
        simp only [hc] at h
        cases hr : rowItems (xlsbCell styles isNull [] cols) rs with
        | error e => simp [hr] at h
        | ok is' =>
          simp only [hr, Except.ok.injEq] at h
          subst h
          have := ih is' hr
          cases hi : itemNull N i <;> simp [Option.filter, List.filter_cons, hi, this]

theorem sheetItems_nulls (cols : List Int) (rows : List SheetRow) : ∀ (L : List (List Item)),
    sheetItems (xlsbCell styles isNull [] cols) rows = .ok L →
    sheetItems (xlsbCell styles isNull N cols) rows = .ok (L.map (List.filter fun i => !itemNull N i)) := by
  induction rows with
  | nil => intro L h; simp only [sheetItems, Except.ok.injEq] at h ⊢; subst h; rfl
  | cons r rows ih =>
    intro L h
    rw [sheetItems] at h ⊢
    cases hr : rowItems (xlsbCell styles isNull [] cols) r.cells with
    | error e => simp [hr] at h
    | ok is =>
      cases hl : sheetItems (xlsbCell styles isNull [] cols) rows with
      | error e => simp [hr, hl] at h
      | ok L' =>
        simp only [hr, hl, Except.ok.injEq] at h
        subst h
        rw [rowItems_nulls cols r.cells is hr, ih L' hl]
        rfl

/-- The null keys as the loop sees them. -/
abbrev late (N : List Bytes) : Bool → List Bytes := fun seen => if seen then N else []

/-- Once a cell is delivered the null keys stay. -/
theorem iter_seen (rs : List Record) : ∀ (row : Int) (empty : Bool),
    iterXlsb styles isNull (late N) o rs ⟨row, empty, true⟩ =
      iterXlsb styles isNull (fun _ => N) o rs ⟨row, empty, true⟩ := by
  induction rs with
  | nil => intro _ _; rfl
  | cons r rs ih =>
    intro row empty
    rw [iterXlsb, iterXlsb]
    simp only [ih, late, if_true]

theorem iter_skip_late (cells rest : List Record) (h : ∀ r ∈ cells, r.recId ≠ 0) (row : Int)
    (hrow : row < (o.skipRows : Int)) (empty seen : Bool) :
    iterXlsb styles isNull (late N) o (cells ++ rest) ⟨row, empty, seen⟩ =
      iterXlsb styles isNull (late N) o rest ⟨row, empty, seen⟩ := by
  induction cells with
  | nil => rfl
  | cons r cells ih =>
    rw [List.cons_append, iterXlsb]
    have hs : (o.skipRows : Int) > row := hrow
    simp only [h r (by simp), hs, if_false, if_true]
    exact ih fun r hr => h r (by simp [hr])

/-- Cells of one row before any cell is delivered. -/
theorem iter_cells_late (cells rest : List Record) (h : ∀ r ∈ cells, r.recId ≠ 0 ∧ r.recId ≠ 402) (row : Int)
    (hrow : (o.skipRows : Int) ≤ row) (empty : Bool) : ∀ (is : List Item),
    rowItems (xlsbCell styles isNull [] o.skipCols) cells = .ok is →
    iterXlsb styles isNull (late N) o (cells ++ rest) ⟨row, empty, false⟩ =
      match is with
      | [] => iterXlsb styles isNull (late N) o rest ⟨row, empty, false⟩
      | i :: is =>
        match iterXlsb styles isNull (fun _ => N) o rest ⟨row, false, true⟩ with
        | .error e => .error e
        | .ok evs =>
          .ok (((i :: is.filter fun j => !itemNull N j).map fun i =>
            Ev.cell ⟨(row - o.skipRows).toNat, i.1, i.2.1, i.2.2⟩) ++ evs) := by
  induction cells with
  | nil =>
    intro is hi
    simp only [rowItems, Except.ok.injEq] at hi
    subst hi
    rfl
  | cons r cells ih =>
    intro is hi
    have hr := h r (by simp)
    have hs : ¬ ((o.skipRows : Int) > row) := by omega
    have hrest : ∀ r ∈ cells, r.recId ≠ 0 ∧ r.recId ≠ 402 := fun r hr => h r (by simp [hr])
    rw [List.cons_append, iterXlsb]
    rw [rowItems] at hi
    simp only [hr.1, hr.2, hs, if_false, late, Bool.false_eq_true]
    cases hc : xlsbCell styles isNull [] o.skipCols r with
    | error e => simp [hc] at hi
    | ok x =>
      simp only [hc] at hi
      cases x with
      | none => exact ih hrest is hi
      | some i =>
        cases hr2 : rowItems (xlsbCell styles isNull [] o.skipCols) cells with
        | error e => simp [hr2] at hi
        | ok is' =>
          simp only [hr2, Except.ok.injEq] at hi
          subst hi
          obtain ⟨c, x, v⟩ := i
          simp only
          rw [iter_seen,
            iter_cells cells rest hrest row hrow false true, rowItems_nulls o.skipCols cells is' hr2]
          simp only [Bool.false_and, Bool.true_or]
          cases iterXlsb styles isNull (fun _ => N) o rest ⟨row, false, true⟩ <;> simp

/-- The loop, row by row, on the values of the rows. -/
def runItems (o : SheetArgs) (fin : Bool) : List (List Item) → Int → Bool → List Ev
  | [], row, _ => if fin = true ∧ (o.skipRows : Int) ≤ row then [.callback] else []
  | is :: L, row, empty =>
    let row := if !empty || o.keepEmpty then row + 1 else row
    if 0 < o.takeRows + o.skipRows ∧ ((o.takeRows + o.skipRows : Nat) : Int) < row then []
    else if (o.skipRows : Int) ≤ row then
      .callback :: (is.map fun i => Ev.cell ⟨(row - o.skipRows).toNat, i.1, i.2.1, i.2.2⟩) ++ runItems o fin L row is.isEmpty
    else runItems o fin L row true

theorem runRows_items (f : Record → Py (Option Item)) (o : SheetArgs) (fin : Bool) (rows : List SheetRow) :
    ∀ (L : List (List Item)) (row : Int) (empty : Bool), sheetItems f rows = .ok L →
    runRows f o fin rows row empty = .ok (runItems o fin L row empty) := by
  induction rows with
  | nil =>
    intro L row empty h
    simp only [sheetItems, Except.ok.injEq] at h
    subst h
    rfl
  | cons r rows ih =>
    intro L row empty h
    rw [sheetItems] at h
    cases hi : rowItems f r.cells with
    | error e => simp [hi] at h
    | ok is =>
      cases hl : sheetItems f rows with
      | error e => simp [hi, hl] at h
      | ok L' =>
        simp only [hi, hl, Except.ok.injEq] at h
        subst h
        rw [runRows, runItems]
        simp only [hi, ih L' _ _ hl]
        generalize (if (!empty || o.keepEmpty) = true then row + 1 else row) = row'
        split
        · rfl
        · split <;> rfl

/-- With limits: exactly the cells of the window, renumbered. -/
theorem runItems_window (fin : Bool) (k t : Nat) (keep : Bool) (cols : List Int) (hk : k = 0 ∨ keep = true)
    (L : List (List Item)) : ∀ (row : Int) (empty : Bool) (n : Nat), (n : Int) = nextRow keep row empty →
    evCells (runItems ⟨k, t, keep, cols⟩ fin L row empty) =
      ((numberedFrom keep n L).filter fun c => inWindow k t c.row).map fun c => { c with row := c.row - k } := by
  induction L with
  | nil =>
    intro row empty n _
    simp only [numberedFrom_nil, List.filter_nil, List.map_nil, runItems]
    split <;> simp [evCells]
  | cons is L' ih =>
    intro row empty n hn
    rw [runItems]
    simp only
    rw [show (if (!empty || keep) = true then row + 1 else row) = (n : Int) from hn.symm]
    by_cases hbrk : 0 < t + k ∧ ((t + k : Nat) : Int) < n
    · simp only [hbrk, and_self, if_true]
      have : (numberedFrom keep n (is :: L')).filter (fun c => inWindow k t c.row) = [] := by
        rw [List.filter_eq_nil_iff]
        intro c hc
        have := numberedFrom_ge keep _ n c hc
        simp [inWindow]
        omega
      rw [this]
      rfl
    · simp only [hbrk, if_false]
      by_cases hs : (k : Int) ≤ n
      · simp only [hs, if_true]
        rw [List.cons_append, evCells_callback, evCells_append, evCells_map,
          ih n is.isEmpty (if is.isEmpty && !keep then n else n + 1) (by
            cases h1 : is.isEmpty <;> cases keep <;> simp [nextRow]), numberedFrom_cons,
          List.filter_append, List.map_append]
        congr 1
        have : (is.map fun i => (⟨n, i.1, i.2.1, i.2.2⟩ : Cell)).filter (fun c => inWindow k t c.row) =
            is.map fun i => (⟨n, i.1, i.2.1, i.2.2⟩ : Cell) := by
          rw [List.filter_eq_self]
          intro c hc
          obtain ⟨i, _, rfl⟩ := List.mem_map.1 hc
          simp [inWindow]
          omega
        rw [this, List.map_map]
        apply List.map_congr_left
        intro i _
        simp only [Function.comp_def, Cell.mk.injEq, and_true]
        omega
      · simp only [hs, if_false]
        have hkeep : keep = true := by
          rcases hk with h | h
          · omega
          · exact h
        rw [ih n true (n + 1) (by simp [nextRow, hkeep]), numberedFrom_cons, List.filter_append]
        have : (is.map fun i => (⟨n, i.1, i.2.1, i.2.2⟩ : Cell)).filter (fun c => inWindow k t c.row) = [] := by
          rw [List.filter_eq_nil_iff]
          intro c hc
          obtain ⟨i, _, rfl⟩ := List.mem_map.1 hc
          simp [inWindow]
          omega
        rw [this]
        simp [hkeep]

/-- From row `n` on: items without a null key, and the first item. -/
def lateFrom (N : List Bytes) (n : Nat) (L : List (List Item)) : List (List Item) :=
  L.take n ++ keepFirst (fun i => !itemNull N i) (L.drop n)

theorem lateFrom_succ (n : Nat) (is : List Item) (L : List (List Item)) :
    lateFrom N (n + 1) (is :: L) = is :: lateFrom N n L := rfl

theorem iter_rows_late (rows : List SheetRow) (tail : List Record)
    (hc : ∀ row ∈ rows, ∀ r ∈ row.cells, r.recId ≠ 0 ∧ r.recId ≠ 402)
    (ht : tail = [] ∨ ∃ e post, tail = e :: post ∧ e.recId = 402) (hk : o.skipRows = 0 ∨ o.keepEmpty = true) :
    ∀ (L : List (List Item)) (row : Int) (empty : Bool),
    sheetItems (xlsbCell styles isNull [] o.skipCols) rows = .ok L →
    (((o.skipRows : Int) ≤ row) ∨ (o.skipRows = 0 ∧ rows ≠ [] ∧ empty = false) ∨ (∀ r ∈ tail, r.recId ≠ 0)) →
    (o.skipRows = 0 → rows ≠ [] → empty = true → 0 ≤ row) → -1 ≤ row →
    iterXlsb styles isNull (late N) o (rows.flatMap (fun r => ⟨0, r.hdr⟩ :: r.cells) ++ tail) ⟨row, empty, false⟩ =
      .ok (runItems o (!tail.isEmpty) (lateFrom N ((o.skipRows : Int) - (row + 1)).toNat L) row empty) := by
  induction rows with
  | nil =>
    intro L row empty hL hq _ _
    simp only [sheetItems, Except.ok.injEq] at hL
    subst hL
    simp only [List.flatMap_nil, List.nil_append, lateFrom, List.take_nil, List.drop_nil, keepFirst, runItems]
    rcases ht with rfl | ⟨e, post, rfl, he⟩
    · simp [iterXlsb]
    · by_cases hs : (o.skipRows : Int) ≤ row
      · rw [iterXlsb]
        have : ¬ ((o.skipRows : Int) > row) := by omega
        simp [he, hs, this]
      · have hq' : ∀ r ∈ e :: post, r.recId ≠ 0 := by
          rcases hq with h | h | h
          · omega
          · simp at h
          · exact h
        have := iter_skip_late (styles := styles) (isNull := isNull) (N := N) (o := o) (e :: post) [] hq' row
          (by omega) empty false
        rw [List.append_nil] at this
        rw [this]
        simp [iterXlsb, hs]
  | cons r rows ih =>
    intro L row empty hL hq he hlow
    have hc' : ∀ row ∈ rows, ∀ r ∈ row.cells, r.recId ≠ 0 ∧ r.recId ≠ 402 :=
      fun row hr => hc row (by simp [hr])
    have hcr := hc r (by simp)
    rw [sheetItems] at hL
    cases hi : rowItems (xlsbCell styles isNull [] o.skipCols) r.cells with
    | error e => simp [hi] at hL
    | ok is =>
    cases hl : sheetItems (xlsbCell styles isNull [] o.skipCols) rows with
    | error e => simp [hi, hl] at hL
    | ok L' =>
    simp only [hi, hl, Except.ok.injEq] at hL
    subst hL
    simp only [List.flatMap_cons, List.cons_append, List.append_assoc]
    rw [iterXlsb]
    simp only [if_true]
    cases hn : ((o.skipRows : Int) - (row + 1)).toNat with
    | zero =>
      have hs : (o.skipRows : Int) ≤ (if (!empty || o.keepEmpty) = true then row + 1 else row) := by
        split
        · omega
        · rename_i hx
          simp only [Bool.or_eq_true, not_or, Bool.not_eq_true, Bool.not_eq_false'] at hx
          have h0 : o.skipRows = 0 := by
            rcases hk with h | h
            · exact h
            · rw [hx.2] at h; cases h
          have := he h0 (by simp) hx.1
          omega
      simp only [lateFrom, List.take_zero, List.drop_zero, List.nil_append]
      cases is with
      | nil =>
        rw [keepFirst, runItems]
        generalize hrow' : (if (!empty || o.keepEmpty) = true then row + 1 else row) = row' at hs ⊢
        have hge : row ≤ row' := by rw [← hrow']; split <;> omega
        by_cases hbrk : 0 < o.takeRows + o.skipRows ∧ ((o.takeRows + o.skipRows : Nat) : Int) < row'
        · simp only [hbrk, and_self, if_true]
        · simp only [hbrk, if_false, hs, if_true]
          rw [iter_cells_late r.cells _ hcr row' hs true [] hi]
          simp only
          rw [ih hc' L' row' true hl (Or.inl hs) (by intros; omega) (by omega),
            show ((o.skipRows : Int) - (row' + 1)).toNat = 0 by omega]
          simp [lateFrom]
      | cons i is =>
        rw [keepFirst, runItems]
        generalize hrow' : (if (!empty || o.keepEmpty) = true then row + 1 else row) = row' at hs ⊢
        have hge : row ≤ row' := by rw [← hrow']; split <;> omega
        by_cases hbrk : 0 < o.takeRows + o.skipRows ∧ ((o.takeRows + o.skipRows : Nat) : Int) < row'
        · simp only [hbrk, and_self, if_true]
        · simp only [hbrk, if_false, hs, if_true]
          rw [iter_cells_late r.cells _ hcr row' hs true (i :: is) hi]
          simp only
          rw [iter_rows rows tail hc' ht row' false true (Or.inl hs) (by intros; omega) (by omega),
            runRows_items _ o _ rows _ row' false (sheetItems_nulls o.skipCols rows L' hl)]
          simp
    | succ m =>
      have hk0 : o.skipRows ≠ 0 := by omega
      have hkeep : o.keepEmpty = true := hk.resolve_left hk0
      rw [lateFrom_succ, runItems]
      simp only [hkeep, Bool.or_true, if_true]
      have hs : ¬ ((o.skipRows : Int) ≤ row + 1) := by omega
      by_cases hbrk : 0 < o.takeRows + o.skipRows ∧ ((o.takeRows + o.skipRows : Nat) : Int) < row + 1
      · omega
      · simp only [hbrk, if_false, hs]
        have hq' : ∀ r ∈ tail, r.recId ≠ 0 := by
          rcases hq with h | h | h
          · omega
          · exact absurd h.1 hk0
          · exact h
        rw [iter_skip_late r.cells _ (fun r hr => (hcr r hr).1) (row + 1) (by omega),
          ih hc' L' (row + 1) true hl (Or.inr (Or.inr hq')) (by intro h; exact absurd h hk0) (by omega),
          show ((o.skipRows : Int) - (row + 1 + 1)).toNat = m by omega]

theorem iter_parts_late (p : SheetParts) (hp : p.Ok) (hq : o.skipRows = 0 ∨ ∀ r ∈ p.tail, r.recId ≠ 0)
    (hk : o.skipRows = 0 ∨ o.keepEmpty = true) (L : List (List Item))
    (hL : sheetItems (xlsbCell styles isNull [] o.skipCols) p.rows = .ok L) :
    iterXlsb styles isNull (late N) o p.records {} =
      .ok (runItems o (!p.tail.isEmpty) (lateFrom N o.skipRows L) (-1) false) := by
  rw [SheetParts.records, iter_skip_late p.pre _ hp.pre (-1) (by omega)]
  have := iter_rows_late (N := N) p.rows p.tail hp.cells hp.tail hk L (-1) false hL (by
    rcases hq with h | h
    · by_cases hr : p.rows = []
      · right; right
        rw [hp.rows hr]
        simp
      · exact Or.inr (Or.inl ⟨h, hr, rfl⟩)
    · exact Or.inr (Or.inr h)) (by intro _ _ h; simp at h) (by omega)
  rw [this]
  congr 3

/-- With rows skipped and empty rows not counted: nothing. -/
theorem iter_stuck_late (records : List Record) (k t : Nat) (hk : 0 < k)
    (cols : List Int) : iterXlsb styles isNull (late N) ⟨k, t, false, cols⟩ records {} = .ok [] := by
  have h : ∀ (rs : List Record) (row : Int) (empty : Bool), nextRow false row empty = 0 → row < k →
      iterXlsb styles isNull (late N) ⟨k, t, false, cols⟩ rs ⟨row, empty, false⟩ = .ok [] := by
    intro rs
    induction rs with
    | nil => intro _ _ _ _; rfl
    | cons r rs ih =>
      intro row empty h1 h2
      rw [iterXlsb]
      simp only
      have e : (if (!empty || false) = true then row + 1 else row) = (0 : Int) := h1
      split
      · rw [e, if_neg (by omega), ih 0 true (by simp [nextRow]) (by omega)]
        simp only
        rw [if_neg (by omega)]
      · exact ih row empty h1 h2
  exact h _ _ _ rfl (by omega)

/-- The cells from an XLSB sheet, with its null keys. -/
theorem xlsb_delivers_late (k t : Nat) (keep : Bool) (cols : List Int) (p : SheetParts) (hp : p.Ok)
    (ht : ∀ r ∈ p.tail, r.recId ≠ 0) (L : List (List Item))
    (hL : sheetItems (xlsbCell styles isNull [] []) p.rows = .ok L) :
    ∃ evs, iterXlsb styles isNull (late N) ⟨k, t, keep, cols⟩ p.records {} = .ok evs ∧
      evCells evs = itemsFrom 0 (xlsbRows k t keep
        (lateFrom N k (L.map fun is => is.filter fun i => !cols.contains i.1))) := by
  have hL' := sheetItems_skip cols p.rows L hL
  by_cases hst : k ≠ 0 ∧ keep = false
  · obtain ⟨hk, rfl⟩ := hst
    refine ⟨[], iter_stuck_late _ k t (by omega) cols, ?_⟩
    simp [xlsbRows, hk, evCells, itemsFrom]
  · have hk : k = 0 ∨ keep = true := by
      by_cases h0 : k = 0
      · exact .inl h0
      · exact .inr (by simpa [h0] using hst)
    refine ⟨_, iter_parts_late p hp (.inr ht) hk _ hL', ?_⟩
    rw [runItems_window _ k t keep cols hk _ (-1) false 0 rfl]
    generalize lateFrom N k (L.map fun is => is.filter fun i => !cols.contains i.1) = M
    have hm0 : ∀ l : List Cell, l.map (fun c : Cell => ({ c with row := c.row - 0 } : Cell)) = l := by
      intro l
      have e : (fun c : Cell => ({ c with row := c.row - 0 } : Cell)) = id := by funext c; cases c; rfl
      rw [e, List.map_id]
    have hlim : ∀ (t : Nat) (M : List (List Item)),
        ((itemsFrom 0 M).filter fun c => inWindow 0 t c.row) = itemsFrom 0 (if t = 0 then M else M.take (t + 1)) := by
      intro t M
      by_cases h0 : t = 0
      · subst h0
        rw [if_pos rfl, List.filter_eq_self]
        intro c _
        simp [inWindow]
      · rw [if_neg h0, ← itemsFrom_take]
        apply List.filter_congr
        intro c _
        simp [inWindow]
        omega
    cases keep with
    | true =>
      simp only [xlsbRows, if_true]
      by_cases hkt : t + k = 0
      · rw [if_pos hkt]
        obtain rfl : k = 0 := by omega
        obtain rfl : t = 0 := by omega
        rw [hm0, numberedFrom]
        simp only [if_true, itemsFrom_zipIdx]
        rw [hlim 0]
        rfl
      · rw [if_neg hkt, window_rows k t (by omega), numberedFrom]
        simp only [if_true, itemsFrom_zipIdx]
    | false =>
      obtain rfl : k = 0 := by simpa using hk
      rw [hm0, numberedFrom]
      simp only [Bool.false_eq_true, if_false, itemsFrom_zipIdx, xlsbRows, if_true]
      exact hlim t _

theorem forall2_keepFirst {α β : Type} {R : α → β → Prop} {p : α → Bool} {q : β → Bool}
    (hpq : ∀ a c, R a c → p a = q c) {L : List (List α)} {V : List (List β)}
    (h : List.Forall₂ (List.Forall₂ R) L V) : List.Forall₂ (List.Forall₂ R) (keepFirst p L) (keepFirst q V) := by
  induction h with
  | nil => exact .nil
  | @cons l m L V hr ht ih =>
    cases hr with
    | nil => exact .cons .nil ih
    | @cons a c l m hac hlm =>
      have h1 : List.Forall₂ (List.Forall₂ R) (([l] : List (List α)).map fun r => r.filter p)
          (([m] : List (List β)).map fun r => r.filter q) := forall2_filterMap hpq (.cons hlm .nil)
      cases h1 with
      | cons h1 _ => exact .cons (.cons hac h1) (forall2_filterMap hpq ht)

end Rxls
