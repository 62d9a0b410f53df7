import Verif.Lemmas.ReadInv
import Verif.Props.Xlsb
import Verif.Props.Casts
import Verif.Lemmas.XlsbParts
import Verif.Spec.Grid
import Verif.Model.ReadXlsb

/-! # Grids and the cells read from them -/

namespace Rxls

/-- The cell the reader delivers. -/
def GCell.cell (temporal : List Bytes) (r : Nat) (c : GCell) : Cell :=
  ⟨r, c.col, c.content.tag (temporal.contains c.style), c.content.raw⟩

/-- The cells of the rows from number `n` on. -/
def cellsFrom (temporal : List Bytes) (isNull : Str → Bool) : Nat → Grid → List Cell
  | _, [] => []
  | n, row :: g => (row.filter fun c => !c.blank isNull).map (GCell.cell temporal n) ++ cellsFrom temporal isNull (n + 1) g

/-! ## From records to cells -/

theorem dropped_blank (isNull : Str → Bool) (c : GCell) : c.content.dropped isNull [] = c.blank isNull := by
  unfold GCell.blank Content.dropped
  cases c.content <;> simp

theorem rowItems_grid (temporal : List Bytes) (isNull : Str → Bool) (n : Nat) : ∀ (row : List GCell),
    (∀ c ∈ row, c.Fits n) → rowItems (xlsbCell temporal isNull [] []) (row.map GCell.record) =
      .ok ((row.filter fun c => !c.blank isNull).map fun c =>
        ((c.col : Int), c.content.tag (temporal.contains c.style), c.content.raw))
  | [], _ => rfl
  | c :: row, h => by
    obtain ⟨h1, h2, h3, h4, _⟩ := h c (by simp)
    rw [List.map_cons, rowItems, GCell.record, C37_cell temporal isNull [] c.col c.style c.flags c.content c.extra c.id
      h1 h2 h3 h4, dropped_blank, rowItems_grid temporal isNull n row fun d hd => h d (by simp [hd])]
    cases hb : c.blank isNull <;> simp [hb]

theorem sheetItems_grid (temporal : List Bytes) (isNull : Str → Bool) (n : Nat) (hdr : Nat → Bytes) :
    ∀ (g : Grid) (i : Nat), (∀ row ∈ g, ∀ c ∈ row, c.Fits n) →
    sheetItems (xlsbCell temporal isNull [] []) ((g.zipIdx i).map fun p => ⟨hdr p.2, p.1.map GCell.record⟩) =
      .ok (g.map fun row => (row.filter fun c => !c.blank isNull).map fun c =>
        ((c.col : Int), c.content.tag (temporal.contains c.style), c.content.raw))
  | [], _, _ => rfl
  | row :: g, i, h => by
    rw [List.zipIdx_cons, List.map_cons, sheetItems, rowItems_grid temporal isNull n row (h row (by simp)),
      sheetItems_grid temporal isNull n hdr g (i + 1) fun r hr => h r (by simp [hr])]
    rfl

theorem numbered_cellsFrom (temporal : List Bytes) (isNull : Str → Bool) : ∀ (g : Grid) (i : Nat),
    (((g.map fun row => (row.filter fun c => !c.blank isNull).map fun c =>
        (((c.col : Int), c.content.tag (temporal.contains c.style), c.content.raw) : Item)).zipIdx i).flatMap fun p =>
      p.1.map fun x => (⟨p.2, x.1, x.2.1, x.2.2⟩ : Cell)) = cellsFrom temporal isNull i g
  | [], _ => rfl
  | row :: g, i => by
    rw [List.map_cons, List.zipIdx_cons, List.flatMap_cons, numbered_cellsFrom temporal isNull g (i + 1), cellsFrom,
      List.map_map]
    rfl

theorem numbered_grid (temporal : List Bytes) (isNull : Str → Bool) (keep : Bool) (g : Grid) :
    numbered keep (g.map fun row => (row.filter fun c => !c.blank isNull).map fun c =>
        ((c.col : Int), c.content.tag (temporal.contains c.style), c.content.raw)) =
      cellsFrom temporal isNull 0 (g.counted keep isNull) := by
  unfold numbered Grid.counted
  cases keep with
  | true => exact numbered_cellsFrom temporal isNull g 0
  | false =>
    simp only [Bool.false_eq_true, if_false]
    rw [← numbered_cellsFrom temporal isNull _ 0, List.filter_map]
    congr 3
    apply List.filter_congr
    intro row _
    simp only [Function.comp, ne_eq, List.map_eq_nil_iff, List.filter_eq_nil_iff, Bool.not_eq_true', decide_not]
    cases ha : row.any fun c => !c.blank isNull
    · rw [List.any_eq_false] at ha
      simpa using ha
    · rw [List.any_eq_true] at ha
      obtain ⟨c, hc, hb⟩ := ha
      simp only [Bool.not_eq_true', decide_eq_false_iff_not]
      intro hall
      exact hall c hc (by simpa using hb)

/-! ## Cells by row -/

theorem mem_cellsFrom {temporal : List Bytes} {isNull : Str → Bool} {d : Cell} : ∀ {g : Grid} {n : Nat},
    d ∈ cellsFrom temporal isNull n g ↔
      ∃ r c, r < g.length ∧ c ∈ g.getD r [] ∧ c.blank isNull = false ∧ d = c.cell temporal (n + r)
  | [], n => by simp [cellsFrom]
  | row :: g, n => by
    rw [cellsFrom, List.mem_append, mem_cellsFrom (g := g)]
    constructor
    · rintro (h | ⟨r, c, h1, h2, h3, rfl⟩)
      · obtain ⟨c, hc, rfl⟩ := List.mem_map.mp h
        obtain ⟨hc, hb⟩ := List.mem_filter.mp hc
        exact ⟨0, c, by simp, by simpa using hc, by simpa using hb, rfl⟩
      · exact ⟨r + 1, c, by simpa using h1, by simpa using h2, h3, by congr 1; omega⟩
    · rintro ⟨r, c, h1, h2, h3, rfl⟩
      cases r with
      | zero => exact .inl (List.mem_map_of_mem (List.mem_filter.mpr ⟨by simpa using h2, by simpa using h3⟩))
      | succ r => exact .inr ⟨r, c, by simpa using h1, by simpa using h2, h3, by congr 1; omega⟩

theorem colCells_append (as bs : List Cell) (k : Int) : colCells (as ++ bs) k = colCells as k ++ colCells bs k := by
  simp [colCells]

theorem rawAt_below {temporal : List Bytes} {isNull : Str → Bool} {g : Grid} {n i : Nat} (k : Int) (h : i < n) :
    rawAt (colCells (cellsFrom temporal isNull n g) k) i = none := by
  unfold rawAt
  cases hf : (colCells (cellsFrom temporal isNull n g) k).find? fun c => decide (i ≤ c.row) with
  | none => rfl
  | some d =>
    have hm := (List.mem_filter.mp (List.mem_of_find?_eq_some hf)).1
    obtain ⟨r, c, _, _, _, rfl⟩ := mem_cellsFrom.mp hm
    have hr : (c.cell temporal (n + r)).row = n + r := rfl
    simp only
    rw [if_neg (by rw [hr]; omega)]

theorem rawAt_cellsFrom (temporal : List Bytes) (isNull : Str → Bool) (k : Int) : ∀ (g : Grid) (n i : Nat),
    rawAt (colCells (cellsFrom temporal isNull n g) k) (n + i) =
      ((g.getD i []).find? fun c => !c.blank isNull && decide ((c.col : Int) = k)).map fun c =>
        (c.content.tag (temporal.contains c.style), c.content.raw)
  | [], n, i => by simp [cellsFrom, colCells, rawAt]
  | row :: g, n, i => by
    rw [cellsFrom, colCells_append]
    have hcol : colCells ((row.filter fun c => !c.blank isNull).map (GCell.cell temporal n)) k =
        (row.filter fun c => !c.blank isNull && decide ((c.col : Int) = k)).map (GCell.cell temporal n) := by
      rw [colCells, List.filter_map, List.filter_filter]
      congr 1
      apply List.filter_congr
      intro c _
      rw [Bool.and_comm]
      rfl
    rw [hcol]
    have hfind : row.find? (fun c => !c.blank isNull && decide ((c.col : Int) = k)) =
        (row.filter fun c => !c.blank isNull && decide ((c.col : Int) = k)).head? := List.head?_filter.symm
    cases i with
    | zero =>
      rw [List.getD_cons_zero, hfind]
      cases hr : row.filter fun c => !c.blank isNull && decide ((c.col : Int) = k) with
      | nil =>
        simp only [List.map_nil, List.nil_append, List.head?_nil, Option.map_none]
        exact rawAt_below k (by omega)
      | cons c cs =>
        simp [rawAt, GCell.cell]
    | succ i =>
      rw [List.getD_cons_succ, ← rawAt_cellsFrom temporal isNull k g (n + 1) i]
      unfold rawAt
      rw [List.find?_append]
      have : ((row.filter fun c => !c.blank isNull && decide ((c.col : Int) = k)).map (GCell.cell temporal n)).find?
          (fun c => decide (n + (i + 1) ≤ c.row)) = none := by
        rw [List.find?_eq_none]
        intro d hd
        obtain ⟨c, _, rfl⟩ := List.mem_map.mp hd
        simp [GCell.cell]
      rw [this, Option.none_or, show n + 1 + i = n + (i + 1) by omega]

/-! ## Values -/

theorem leNat_le32 {n : Nat} (h : n < 2 ^ 32) : leNat (le32 n) = n := by
  simp only [le32, leNat, UInt8.toNat_ofNat']
  omega

theorem leNat_le64 {n : Nat} (h : n < 2 ^ 64) : leNat (le64 n) = n := by
  simp only [le64, le32, leNat, UInt8.toNat_ofNat', List.cons_append, List.nil_append]
  omega

theorem GCell.rawValue_eq (env : Env) (temporal : List Bytes) (shared : List Str) (c : GCell)
    (h : c.Fits shared.length) :
    rawValue env true (shared.map some) (c.content.tag (temporal.contains c.style)) c.content.raw =
      some (some (c.value temporal shared)) := by
  obtain ⟨_, _, h3, _, h5⟩ := h
  have hmem : (temporal.contains c.style = true) = (c.style ∈ temporal) := by simp
  unfold rawValue GCell.value
  rw [if_pos rfl]
  cases hc : c.content with
  | rk w =>
    have hw : w < 2 ^ 32 := by rw [hc] at h3; exact h3
    have e : rkToF8 (BitVec.ofNat 32 w) = rkValue w := by
      rw [C14_rk_decode, BitVec.toNat_ofNat, Nat.mod_eq_of_lt hw]
    by_cases ht : c.style ∈ temporal
    · simp [Content.tag, Content.raw, Content.bytes, xlsbValue, ht, leNat_le32 hw, e, le32_length]
    · simp [Content.tag, Content.raw, Content.bytes, xlsbValue, ht, leNat_le32 hw, e, le32_length]
  | real w =>
    have hw : w < 2 ^ 64 := by rw [hc] at h3; exact h3
    have hl : (le64 w).length = 8 := rfl
    by_cases ht : c.style ∈ temporal
    · simp [Content.tag, Content.raw, Content.bytes, xlsbValue, ht, leNat_le64 hw, hl]
    · simp [Content.tag, Content.raw, Content.bytes, xlsbValue, ht, leNat_le64 hw, hl]
  | bool b => cases b <;> simp [Content.tag, Content.raw, Content.bytes, xlsbValue, leNat]
  | text s => simp [Content.tag, Content.raw, xlsbValue]
  | shared i =>
    have hi := h5 i hc
    have hw : i < 2 ^ 32 := by rw [hc] at h3; exact h3
    simp [Content.tag, Content.raw, Content.bytes, xlsbValue, leNat_le32 hw, le32_length,
      List.getElem?_eq_getElem hi]

theorem cellAt_colValues (env : Env) (b : Bool) (shared : List (Option Str)) (cells : List Cell) (k : Int) (i : Nat) :
    cellAt (colValues env b shared cells k) i = rowValue env b shared (rawAt (colCells cells k) i) := by
  unfold cellAt colValues
  rw [List.getElem?_map]
  by_cases hi : i < height (colCells cells k)
  · have : (rawColumn (colCells cells k))[i]? = some (rawAt (colCells cells k) i) := by
      simp [rawColumn, hi]
    rw [this]
    rfl
  · have h1 : (rawColumn (colCells cells k))[i]? = none := List.getElem?_eq_none (by simp [rawColumn]; omega)
    have h2 : rawAt (colCells cells k) i = none := by
      unfold rawAt
      rw [find_ge _ _ (by omega)]
    rw [h1, h2]
    rfl

theorem grid_values (env : Env) (temporal : List Bytes) (shared : List Str) (isNull : Str → Bool) (g : Grid)
    (hg : ∀ row ∈ g, ∀ c ∈ row, c.Fits shared.length) (k : Int) (i : Nat) :
    cellAt (colValues env true (shared.map some) (cellsFrom temporal isNull 0 g) k) i =
      g.at temporal shared isNull k i := by
  rw [cellAt_colValues, ← Nat.zero_add i, rawAt_cellsFrom, Nat.zero_add]
  unfold Grid.at
  cases hf : (g.getD i []).find? fun c => !c.blank isNull && decide ((c.col : Int) = k) with
  | none => rfl
  | some c =>
    have hm := List.mem_of_find?_eq_some hf
    have hrow : g.getD i [] ∈ g := by
      by_cases hi : i < g.length
      · simp [List.getElem?_eq_getElem hi]
      · have : g[i]? = none := List.getElem?_eq_none (by omega)
        simp [this] at hm
    simp only [Option.map_some, rowValue]
    rw [c.rawValue_eq env temporal shared (hg _ hrow c hm)]
    rfl

theorem grid_present (env : Env) (temporal : List Bytes) (shared : List Str) (isNull : Str → Bool) (g : Grid)
    (hg : ∀ row ∈ g, ∀ c ∈ row, c.Fits shared.length) :
    PresentCells env true (shared.map some) (cellsFrom temporal isNull 0 g) := by
  intro d hd
  obtain ⟨r, c, hr, hc, _, rfl⟩ := mem_cellsFrom.mp hd
  have hrow : g.getD r [] ∈ g := by simp [List.getElem?_eq_getElem hr]
  exact ⟨_, c.rawValue_eq env temporal shared (hg _ hrow c hc)⟩

/-! ## Columns and spans -/

theorem cellsFrom_cols (temporal : List Bytes) (isNull : Str → Bool) : ∀ (g : Grid) (n : Nat),
    (cellsFrom temporal isNull n g).map (·.col) = g.cols isNull
  | [], _ => rfl
  | row :: g, n => by
    rw [cellsFrom, List.map_append, cellsFrom_cols temporal isNull g (n + 1)]
    unfold Grid.cols
    rw [List.flatten_cons, List.filterMap_append]
    congr 1
    induction row with
    | nil => rfl
    | cons c row ih =>
      cases hb : c.blank isNull
      · simp only [List.filter_cons, hb, Bool.not_false, if_true, List.map_cons, ih, List.filterMap_cons]
        rfl
      · simp only [List.filter_cons, hb, Bool.not_true, Bool.false_eq_true, if_false, if_true, ih, List.filterMap_cons]

theorem grid_columns (temporal : List Bytes) (isNull : Str → Bool) (g : Grid) :
    columnsOf (cellsFrom temporal isNull 0 g) = g.columns isNull := by
  rw [columnsOf, cellsFrom_cols]; rfl

theorem grid_seen (temporal : List Bytes) (isNull : Str → Bool) (g : Grid) :
    firstSeen (cellsFrom temporal isNull 0 g) = g.seen isNull := by
  rw [firstSeen, List.map_reverse, cellsFrom_cols]; rfl

theorem mem_rowsOf {temporal : List Bytes} {isNull : Str → Bool} {g : Grid} {k : Int} {r : Nat} :
    r ∈ g.rowsOf isNull k ↔ ∃ d ∈ colCells (cellsFrom temporal isNull 0 g) k, d.row = r := by
  unfold Grid.rowsOf
  rw [List.mem_filter, List.mem_range, List.any_eq_true]
  constructor
  · rintro ⟨hr, c, hc, hb⟩
    simp only [Bool.and_eq_true, Bool.not_eq_true', decide_eq_true_eq] at hb
    refine ⟨c.cell temporal (0 + r), List.mem_filter.mpr ⟨mem_cellsFrom.mpr ⟨r, c, hr, hc, hb.1, rfl⟩, ?_⟩, ?_⟩
    · simpa [GCell.cell] using hb.2
    · simp [GCell.cell]
  · rintro ⟨d, hd, rfl⟩
    obtain ⟨hd, hk⟩ := List.mem_filter.mp hd
    obtain ⟨r, c, hr, hc, hb, rfl⟩ := mem_cellsFrom.mp hd
    have hr0 : (c.cell temporal (0 + r)).row = r := by simp [GCell.cell]
    rw [hr0]
    exact ⟨hr, c, hc, by simpa [hb, GCell.cell] using hk⟩

theorem cellsFrom_sorted (temporal : List Bytes) (isNull : Str → Bool) : ∀ (g : Grid) (n : Nat),
    (cellsFrom temporal isNull n g).Pairwise fun a b => a.row ≤ b.row
  | [], _ => List.Pairwise.nil
  | row :: g, n => by
    rw [cellsFrom, List.pairwise_append]
    refine ⟨?_, cellsFrom_sorted temporal isNull g (n + 1), ?_⟩
    · rw [List.pairwise_map]
      exact List.pairwise_of_forall fun _ _ => by simp [GCell.cell]
    · intro a ha b hb
      obtain ⟨c, _, rfl⟩ := List.mem_map.mp ha
      obtain ⟨r, d, _, _, _, rfl⟩ := mem_cellsFrom.mp hb
      simp only [GCell.cell]
      omega

theorem height_attained {cs : List Cell} (h : cs ≠ []) : ∃ c ∈ cs, c.row + 1 = height cs := by
  induction cs with
  | nil => exact absurd rfl h
  | cons c cs ih =>
    by_cases hc : cs = []
    · subst hc; exact ⟨c, by simp, by simp [height]⟩
    · obtain ⟨d, hd, he⟩ := ih hc
      have hh : height (c :: cs) = max (c.row + 1) (height cs) := by simp [height]
      by_cases hle : c.row + 1 ≤ height cs
      · exact ⟨d, by simp [hd], by rw [hh]; omega⟩
      · exact ⟨c, by simp, by rw [hh]; omega⟩

theorem rowsOf_sorted (isNull : Str → Bool) (g : Grid) (k : Int) : (g.rowsOf isNull k).Pairwise (· < ·) :=
  List.Pairwise.filter _ List.pairwise_lt_range

theorem grid_span (temporal : List Bytes) (isNull : Str → Bool) (g : Grid) (k : Int) :
    spanOf (cellsFrom temporal isNull 0 g) k = g.span isNull k := by
  have hmem := fun r => mem_rowsOf (temporal := temporal) (isNull := isNull) (g := g) (k := k) (r := r)
  have hs := rowsOf_sorted isNull g k
  unfold spanOf Grid.span
  cases hc : colCells (cellsFrom temporal isNull 0 g) k with
  | nil =>
    cases hr : g.rowsOf isNull k with
    | nil => rfl
    | cons r rs =>
      have := (hmem r).mp (by rw [hr]; simp)
      rw [hc] at this
      simp at this
  | cons c cs =>
    have hsort : (c :: cs).Pairwise fun a b => a.row ≤ b.row := by
      rw [← hc]
      exact List.Pairwise.filter _ (cellsFrom_sorted temporal isNull g 0)
    cases hr : g.rowsOf isNull k with
    | nil =>
      have := (hmem c.row).mpr ⟨c, by rw [hc]; simp, rfl⟩
      rw [hr] at this
      simp at this
    | cons r rs =>
      rw [hr] at hs
      rw [hc, hr] at hmem
      have hfirst : c.row = r := by
        have h1 : r ≤ c.row := by
          have := (hmem c.row).mpr ⟨c, by simp, rfl⟩
          rcases List.mem_cons.mp this with h | h
          · omega
          · have := (List.pairwise_cons.mp hs).1 _ h; omega
        have h2 : c.row ≤ r := by
          obtain ⟨d, hd, e⟩ := (hmem r).mp (by simp)
          rcases List.mem_cons.mp hd with rfl | hd
          · omega
          · have := (List.pairwise_cons.mp hsort).1 _ hd; omega
        omega
      have hlast : height (c :: cs) = (r :: rs).getLast (by simp) + 1 := by
        obtain ⟨d, hd, e⟩ := height_attained (cs := c :: cs) (by simp)
        obtain ⟨d2, hd2, e2⟩ := (hmem _).mp (List.getLast_mem (l := r :: rs) (by simp))
        have h1 := height_ge hd2
        have h2 : d.row ≤ (r :: rs).getLast (by simp) := by
          have := (hmem d.row).mpr ⟨d, hd, rfl⟩
          rw [← List.dropLast_append_getLast (l := r :: rs) (by simp)] at this hs
          rcases List.mem_append.mp this with h | h
          · have := (List.pairwise_append.mp hs).2.2 _ h ((r :: rs).getLast (by simp)) (by simp)
            omega
          · simp at h; omega
        omega
      have hle : r ≤ (r :: rs).getLast (by simp) := by
        obtain ⟨d2, hd2, e2⟩ := (hmem _).mp (List.getLast_mem (l := r :: rs) (by simp))
        rcases List.mem_cons.mp hd2 with rfl | hd2
        · omega
        · have := (List.pairwise_cons.mp hsort).1 _ hd2; omega
      simp only
      rw [hlast, hfirst]
      omega

theorem grid_maxSpan (temporal : List Bytes) (isNull : Str → Bool) (g : Grid) :
    maxSpan (cellsFrom temporal isNull 0 g) = g.maxSpan isNull := by
  unfold maxSpan Grid.maxSpan
  rw [grid_columns temporal]
  induction g.columns isNull with
  | nil => rfl
  | cons k ks ih =>
    simp only [List.map_cons, List.foldr_cons, ih, grid_span]
    omega

/-! ## Tables -/

theorem sheetTable_congr {A D : Type} (env : Env) (lib : Lib A D) (search : Str → Option (Str → Bool))
    (reMatch : Str → Str → Py Bool) (args : ReadArgs D) (p : ConcatOpts) (v w : Int → List (Option Val))
    (h : ∀ k i, cellAt (v k) i = cellAt (w k) i) (order keys : List Int) (span : Int) :
    sheetTable env lib search reMatch args p v order keys span =
      sheetTable env lib search reMatch args p w order keys span := by
  have hw : ∀ k off len, window (v k) off len = window (w k) off len := by
    intro k off len; simp only [window, h]
  have hp : ∀ k off len m, pickRows (v k) off len m = pickRows (w k) off len m := by
    intro k off len m
    cases m with
    | none => exact hw k off len
    | some m => simp only [pickRows, maskedRows, h]
  have h1 : lookupRow env p v = lookupRow env p w := by
    funext keys size s lk
    cases lk <;> simp only [lookupRow, hw]
  have h2 : namesFor env p v = namesFor env p w := by
    funext keys row a
    cases a <;> simp only [namesFor, hw]
  have h3 : maskFor env p v = maskFor env p w := by
    funext f s off len
    simp only [maskFor, hw]
  have h4 : ∀ keys names d off len m, tableOf env lib p v keys names d off len m =
      tableOf env lib p w keys names d off len m := by
    intro keys names d off len m
    simp only [tableOf, hp]
  unfold sheetTable
  simp only [h1, h2, h3, h4]

/-! ### The conditions on a concrete grid can be evaluated -/

instance (s : Str) : Decidable (NoMark s) :=
  match s with
  | [] => .isTrue fun _ _ h => nomatch h
  | c :: t => decidable_of_iff (c.toNat ≠ 0xFEFF ∧ c.toNat ≠ 0xFFFE)
      ⟨fun h _ _ e => by injection e with e _; exact e ▸ h, fun h => h c t rfl⟩

instance (c : Content) : Decidable c.Fits := by
  cases c <;> unfold Content.Fits <;> infer_instance

/-- The index of a shared string. -/
def Content.shared? : Content → Option Nat
  | .shared i => some i
  | _ => none

instance (n : Nat) (c : GCell) : Decidable (c.Fits n) :=
  decidable_of_iff (c.col < 2 ^ 32 ∧ c.style.length = 3 ∧ c.content.Fits ∧ c.id ∈ c.content.ids ∧
      ∀ i ∈ c.content.shared?, i < n) (by
    unfold GCell.Fits
    cases c.content <;> simp [Content.shared?])

theorem Grid.inline_tag (g : Grid) (temporal : List Bytes) {k : Int} (h : g.inline k = true) {row : List GCell}
    (hrow : row ∈ g) {c : GCell} (hc : c ∈ row) (hk : (c.col : Int) = k := by rfl) :
    c.content.tag (temporal.contains c.style) ≠ 0x11 := by
  have := List.all_eq_true.mp (List.all_eq_true.mp h row hrow) c hc
  cases hct : c.content with
  | shared i => rw [hct] at this; simp [hk] at this
  | rk w => simp only [Content.tag]; split <;> decide
  | real w => simp only [Content.tag]; split <;> decide
  | _ => simp [Content.tag]

theorem Grid.inline_counted (g : Grid) (temporal : List Bytes) (isNull : Str → Bool) (keep : Bool) {k : Int}
    (h : g.inline k = true) : inlineColumn (cellsFrom temporal isNull 0 (g.counted keep isNull)) k = true := by
  refine List.all_eq_true.mpr fun d hd => ?_
  obtain ⟨hm, hk⟩ := List.mem_filter.mp hd
  obtain ⟨r, c, hr, hc, _, rfl⟩ := mem_cellsFrom.mp hm
  have hrow : (g.counted keep isNull).getD r [] ∈ g := by
    have hsub : ∀ x ∈ g.counted keep isNull, x ∈ g := by
      intro x hx
      unfold Grid.counted at hx
      split at hx
      · exact hx
      · exact (List.mem_filter.mp hx).1
    refine hsub _ ?_
    rw [List.getD_eq_getElem?_getD, List.getElem?_eq_getElem hr]
    exact List.getElem_mem hr
  simpa [GCell.cell] using g.inline_tag temporal h hrow hc (by simpa [GCell.cell] using hk)

end Rxls
