import Verif.Lemmas.Grid
import Verif.Lemmas.Xlsx
import Verif.Spec.Values

/-! # Rows of values and the cells they are read from -/

namespace Rxls

/-- Item and value belong together. -/
def Means (env : Env) (b : Bool) (shared : List (Option Str)) (it : Item) (p : Int × Val) : Prop :=
  it.1 = p.1 ∧ rawValue env b shared it.2.1 it.2.2 = some (some p.2)

/-- A cell of row `n`. -/
def Item.cell (n : Nat) (it : Item) : Cell := ⟨n, it.1, it.2.1, it.2.2⟩

/-- The cells of the rows from number `n` on. -/
def itemsFrom : Nat → List (List Item) → List Cell
  | _, [] => []
  | n, row :: g => row.map (Item.cell n) ++ itemsFrom (n + 1) g

theorem itemsFrom_zipIdx : ∀ (L : List (List Item)) (n : Nat),
    ((L.zipIdx n).flatMap fun p => p.1.map fun i => (⟨p.2, i.1, i.2.1, i.2.2⟩ : Cell)) = itemsFrom n L
  | [], _ => rfl
  | row :: L, n => by
    rw [List.zipIdx_cons, List.flatMap_cons, itemsFrom_zipIdx L (n + 1), itemsFrom]
    rfl

theorem numbered_true (L : List (List Item)) : numbered true L = itemsFrom 0 L := itemsFrom_zipIdx L 0

theorem numbered_false (L : List (List Item)) : numbered false L = itemsFrom 0 (L.filter (· ≠ [])) :=
  itemsFrom_zipIdx _ 0

theorem mem_itemsFrom {d : Cell} : ∀ {L : List (List Item)} {n : Nat},
    d ∈ itemsFrom n L ↔ ∃ r it, r < L.length ∧ it ∈ L.getD r [] ∧ d = Item.cell (n + r) it
  | [], n => by simp [itemsFrom]
  | row :: L, n => by
    rw [itemsFrom, List.mem_append, mem_itemsFrom (L := L)]
    constructor
    · rintro (h | ⟨r, c, h1, h2, rfl⟩)
      · obtain ⟨c, hc, rfl⟩ := List.mem_map.mp h
        exact ⟨0, c, by simp, by simpa using hc, rfl⟩
      · exact ⟨r + 1, c, by simpa using h1, by simpa using h2, by congr 1; omega⟩
    · rintro ⟨r, c, h1, h2, rfl⟩
      cases r with
      | zero => exact .inl (List.mem_map_of_mem (by simpa using h2))
      | succ r => exact .inr ⟨r, c, by simpa using h1, by simpa using h2, by congr 1; omega⟩

theorem rawAt_itemsBelow {L : List (List Item)} {n i : Nat} (k : Int) (h : i < n) :
    rawAt (colCells (itemsFrom n L) k) i = none := by
  unfold rawAt
  cases hf : (colCells (itemsFrom n L) k).find? fun c => decide (i ≤ c.row) with
  | none => rfl
  | some d =>
    have hm := (List.mem_filter.mp (List.mem_of_find?_eq_some hf)).1
    obtain ⟨r, c, _, _, rfl⟩ := mem_itemsFrom.mp hm
    have hr : (Item.cell (n + r) c).row = n + r := rfl
    simp only
    rw [if_neg (by rw [hr]; omega)]

theorem rawAt_itemsFrom (k : Int) : ∀ (L : List (List Item)) (n i : Nat),
    rawAt (colCells (itemsFrom n L) k) (n + i) =
      ((L.getD i []).find? fun it => it.1 = k).map fun it => (it.2.1, it.2.2)
  | [], n, i => by simp [itemsFrom, colCells, rawAt]
  | row :: L, n, i => by
    rw [itemsFrom, colCells_append]
    have hcol : colCells (row.map (Item.cell n)) k =
        (row.filter fun it => it.1 = k).map (Item.cell n) := by
      rw [colCells, List.filter_map]
      rfl
    rw [hcol]
    have hfind : row.find? (fun it => decide (it.1 = k)) = (row.filter fun it => it.1 = k).head? :=
      List.head?_filter.symm
    cases i with
    | zero =>
      rw [List.getD_cons_zero, hfind]
      cases hr : row.filter fun it => it.1 = k with
      | nil =>
        simp only [List.map_nil, List.nil_append, List.head?_nil, Option.map_none]
        exact rawAt_itemsBelow k (by omega)
      | cons c cs =>
        simp [rawAt, Item.cell]
    | succ i =>
      rw [List.getD_cons_succ, ← rawAt_itemsFrom k L (n + 1) i]
      unfold rawAt
      rw [List.find?_append]
      have : ((row.filter fun it => it.1 = k).map (Item.cell n)).find?
          (fun c => decide (n + (i + 1) ≤ c.row)) = none := by
        rw [List.find?_eq_none]
        intro d hd
        obtain ⟨c, _, rfl⟩ := List.mem_map.mp hd
        simp [Item.cell]
      rw [this, Option.none_or, show n + 1 + i = n + (i + 1) by omega]

section
variable {env : Env} {b : Bool} {shared : List (Option Str)} {L : List (List Item)} {V : VGrid}

theorem forall2_getD {α β : Type} {R : α → β → Prop} {L : List (List α)} {V : List (List β)}
    (h : List.Forall₂ (List.Forall₂ R) L V) (i : Nat) : List.Forall₂ R (L.getD i []) (V.getD i []) := by
  induction h generalizing i with
  | nil => simp
  | cons h _ ih =>
    cases i with
    | zero => simpa using h
    | succ i => simpa using ih i

theorem means_find {l : List Item} {vs : List (Int × Val)} (h : List.Forall₂ (Means env b shared) l vs) (k : Int) :
    (((l.find? fun it => it.1 = k).map fun it => (it.2.1, it.2.2)).elim none fun q =>
      (rawValue env b shared q.1 q.2).join) = (vs.find? fun p => p.1 = k).map (·.2) := by
  induction h with
  | nil => rfl
  | @cons it p l vs hm _ ih =>
    obtain ⟨h1, h2⟩ := hm
    by_cases hk : p.1 = k
    · have hk' : it.1 = k := h1.trans hk
      simp [List.find?_cons, hk, hk', h2]
    · have hk' : ¬ it.1 = k := fun e => hk (h1.symm.trans e)
      simpa [List.find?_cons, hk, hk'] using ih

theorem items_values (h : List.Forall₂ (List.Forall₂ (Means env b shared)) L V) (k : Int) (i : Nat) :
    cellAt (colValues env b shared (itemsFrom 0 L) k) i = V.at k i := by
  rw [cellAt_colValues, ← Nat.zero_add i, rawAt_itemsFrom, Nat.zero_add]
  have := means_find (forall2_getD h i) k
  unfold VGrid.at
  rw [← this]
  cases (L.getD i []).find? fun it => decide (it.1 = k) <;> rfl

theorem forall2_mem_left {α β : Type} {R : α → β → Prop} {l : List α} {m : List β} (h : List.Forall₂ R l m) {a : α}
    (ha : a ∈ l) : ∃ c ∈ m, R a c := by
  induction h with
  | nil => simp at ha
  | cons h _ ih =>
    rcases List.mem_cons.mp ha with rfl | ha
    · exact ⟨_, by simp, h⟩
    · obtain ⟨c, hc, hr⟩ := ih ha; exact ⟨c, by simp [hc], hr⟩

theorem items_present (h : List.Forall₂ (List.Forall₂ (Means env b shared)) L V) :
    PresentCells env b shared (itemsFrom 0 L) := by
  intro d hd
  obtain ⟨r, it, _, hit, rfl⟩ := mem_itemsFrom.mp hd
  obtain ⟨p, _, _, hp⟩ := forall2_mem_left (forall2_getD h r) hit
  exact ⟨p.2, hp⟩

theorem itemsFrom_cols : ∀ (L : List (List Item)) (n : Nat), (itemsFrom n L).map (·.col) = L.flatten.map (·.1)
  | [], _ => rfl
  | row :: L, n => by
    rw [itemsFrom, List.map_append, itemsFrom_cols L (n + 1), List.flatten_cons, List.map_append, List.map_map]
    rfl

/-- Item and value are in the same column. -/
def SameCol (it : Item) (p : Int × Val) : Prop := it.1 = p.1

theorem Means.same (h : List.Forall₂ (List.Forall₂ (Means env b shared)) L V) :
    List.Forall₂ (List.Forall₂ SameCol) L V :=
  h.imp fun _ _ h => h.imp fun _ _ h => h.1

theorem same_cols (h : List.Forall₂ (List.Forall₂ SameCol) L V) : L.flatten.map (·.1) = V.cols := by
  unfold VGrid.cols
  induction h with
  | nil => rfl
  | @cons l vs L V hr _ ih =>
    rw [List.flatten_cons, List.flatten_cons, List.map_append, List.map_append, ih]
    congr 1
    induction hr with
    | nil => rfl
    | cons hm _ ih => rw [List.map_cons, List.map_cons, ih, hm]

theorem same_columns (h : List.Forall₂ (List.Forall₂ SameCol) L V) :
    columnsOf (itemsFrom 0 L) = V.columns := by
  rw [columnsOf, itemsFrom_cols, same_cols h]; rfl

theorem same_seen (h : List.Forall₂ (List.Forall₂ SameCol) L V) :
    firstSeen (itemsFrom 0 L) = V.seen := by
  rw [firstSeen, List.map_reverse, itemsFrom_cols, same_cols h]; rfl

theorem same_rowsOf (h : List.Forall₂ (List.Forall₂ SameCol) L V) {k : Int} {r : Nat} :
    r ∈ V.rowsOf k ↔ ∃ d ∈ colCells (itemsFrom 0 L) k, d.row = r := by
  have hany : (V.getD r []).any (fun p => p.1 = k) = (L.getD r []).any fun it => it.1 = k := by
    have key : ∀ (l : List Item) (vs : List (Int × Val)), List.Forall₂ SameCol l vs →
        vs.any (fun p => p.1 = k) = l.any fun it => it.1 = k := by
      intro l vs hr
      induction hr with
      | nil => rfl
      | cons hm _ ih => rw [List.any_cons, List.any_cons, ih, hm]
    exact key _ _ (forall2_getD h r)
  have hlen := h.length_eq
  unfold VGrid.rowsOf
  rw [List.mem_filter, List.mem_range, hany, List.any_eq_true, ← hlen]
  constructor
  · rintro ⟨hr, c, hc, hb⟩
    refine ⟨Item.cell (0 + r) c, List.mem_filter.mpr ⟨mem_itemsFrom.mpr ⟨r, c, hr, hc, rfl⟩, ?_⟩, ?_⟩
    · simpa [Item.cell] using hb
    · simp [Item.cell]
  · rintro ⟨d, hd, rfl⟩
    obtain ⟨hd, hk⟩ := List.mem_filter.mp hd
    obtain ⟨r, c, hr, hc, rfl⟩ := mem_itemsFrom.mp hd
    have hr0 : (Item.cell (0 + r) c).row = r := by simp [Item.cell]
    rw [hr0]
    exact ⟨hr, c, hc, by simpa [Item.cell] using hk⟩

theorem means_cols (h : List.Forall₂ (List.Forall₂ (Means env b shared)) L V) : L.flatten.map (·.1) = V.cols :=
  same_cols (Means.same h)

theorem items_columns (h : List.Forall₂ (List.Forall₂ (Means env b shared)) L V) :
    columnsOf (itemsFrom 0 L) = V.columns := same_columns (Means.same h)

theorem items_seen (h : List.Forall₂ (List.Forall₂ (Means env b shared)) L V) :
    firstSeen (itemsFrom 0 L) = V.seen := same_seen (Means.same h)

theorem itemsFrom_sorted : ∀ (L : List (List Item)) (n : Nat),
    (itemsFrom n L).Pairwise fun a b => a.row ≤ b.row
  | [], _ => List.Pairwise.nil
  | row :: L, n => by
    rw [itemsFrom, List.pairwise_append]
    refine ⟨?_, itemsFrom_sorted L (n + 1), ?_⟩
    · rw [List.pairwise_map]
      exact List.pairwise_of_forall fun _ _ => by simp [Item.cell]
    · intro a ha b hb
      obtain ⟨c, _, rfl⟩ := List.mem_map.mp ha
      obtain ⟨r, d, _, _, rfl⟩ := mem_itemsFrom.mp hb
      simp only [Item.cell]
      omega

/-- From the first of some rows to the last one. -/
def rowSpan : List Nat → Nat
  | [] => 0
  | r :: rs => (r :: rs).getLast (by simp) - r + 1

theorem span_of_rows {cells : List Cell} (hsorted : cells.Pairwise fun a b => a.row ≤ b.row) (k : Int)
    (rows : List Nat) (hs : rows.Pairwise (· < ·)) (hmem : ∀ r, r ∈ rows ↔ ∃ d ∈ colCells cells k, d.row = r) :
    spanOf cells k = rowSpan rows := by
  unfold spanOf
  cases hc : colCells cells k with
  | nil =>
    cases hr : rows with
    | nil => rfl
    | cons r rs =>
      have := (hmem r).mp (by rw [hr]; simp)
      rw [hc] at this
      simp at this
  | cons c cs =>
    have hsort : (c :: cs).Pairwise fun a b => a.row ≤ b.row := by
      rw [← hc]
      exact List.Pairwise.filter _ hsorted
    cases hr : rows with
    | nil =>
      have := (hmem c.row).mpr ⟨c, by rw [hc]; simp, rfl⟩
      rw [hr] at this
      simp at this
    | cons r rs =>
      rw [hr] at hs
      rw [hc, hr] at hmem
      have hfirst : c.row = r := by
        have h1 : r ≤ c.row := by
          have := (hmem c.row).mpr ⟨c, by simp, rfl⟩
          rcases List.mem_cons.mp this with h | h
          · omega
          · have := (List.pairwise_cons.mp hs).1 _ h; omega
        have h2 : c.row ≤ r := by
          obtain ⟨d, hd, e⟩ := (hmem r).mp (by simp)
          rcases List.mem_cons.mp hd with rfl | hd
          · omega
          · have := (List.pairwise_cons.mp hsort).1 _ hd; omega
        omega
      have hlast : height (c :: cs) = (r :: rs).getLast (by simp) + 1 := by
        obtain ⟨d, hd, e⟩ := height_attained (cs := c :: cs) (by simp)
        obtain ⟨d2, hd2, e2⟩ := (hmem _).mp (List.getLast_mem (l := r :: rs) (by simp))
        have h1 := height_ge hd2
        have h2 : d.row ≤ (r :: rs).getLast (by simp) := by
          have := (hmem d.row).mpr ⟨d, hd, rfl⟩
          rw [← List.dropLast_append_getLast (l := r :: rs) (by simp)] at this hs
          rcases List.mem_append.mp this with h | h
          · have := (List.pairwise_append.mp hs).2.2 _ h ((r :: rs).getLast (by simp)) (by simp)
            omega
          · simp at h; omega
        omega
      have hle : r ≤ (r :: rs).getLast (by simp) := by
        obtain ⟨d2, hd2, e2⟩ := (hmem _).mp (List.getLast_mem (l := r :: rs) (by simp))
        rcases List.mem_cons.mp hd2 with rfl | hd2
        · omega
        · have := (List.pairwise_cons.mp hsort).1 _ hd2; omega
      simp only [rowSpan]
      rw [hlast, hfirst]
      omega

theorem same_span (h : List.Forall₂ (List.Forall₂ SameCol) L V) (k : Int) :
    spanOf (itemsFrom 0 L) k = V.span k := by
  rw [span_of_rows (itemsFrom_sorted L 0) k (V.rowsOf k) (List.Pairwise.filter _ List.pairwise_lt_range)
    fun r => same_rowsOf h]
  unfold VGrid.span rowSpan
  cases V.rowsOf k <;> rfl

theorem same_maxSpan (h : List.Forall₂ (List.Forall₂ SameCol) L V) :
    maxSpan (itemsFrom 0 L) = V.maxSpan := by
  unfold maxSpan VGrid.maxSpan
  rw [same_columns h]
  induction V.columns with
  | nil => rfl
  | cons k ks ih =>
    simp only [List.map_cons, List.foldr_cons, ih, same_span h]
    omega

theorem items_maxSpan (h : List.Forall₂ (List.Forall₂ (Means env b shared)) L V) :
    maxSpan (itemsFrom 0 L) = V.maxSpan := same_maxSpan (Means.same h)

theorem forall2_filterMap {α β : Type} {R : α → β → Prop} {p : α → Bool} {q : β → Bool}
    (hpq : ∀ a c, R a c → p a = q c) {L : List (List α)} {V : List (List β)}
    (h : List.Forall₂ (List.Forall₂ R) L V) :
    List.Forall₂ (List.Forall₂ R) (L.map fun r => r.filter p) (V.map fun r => r.filter q) := by
  have row : ∀ (l : List α) (m : List β), List.Forall₂ R l m → List.Forall₂ R (l.filter p) (m.filter q) := by
    intro l m hr
    induction hr with
    | nil => exact .nil
    | @cons a c l m hm _ ih =>
      rw [List.filter_cons, List.filter_cons, hpq a c hm]
      split
      · exact .cons hm ih
      · exact ih
  induction h with
  | nil => exact .nil
  | cons h _ ih => exact .cons (row _ _ h) ih

/-- The item has the value, and is no shared string in a column without them. -/
def MeansIn (env : Env) (b : Bool) (shared : List (Option Str)) (inl : Int → Bool) (it : Item) (p : Int × Val) : Prop :=
  Means env b shared it p ∧ (inl it.1 = true → it.2.1 ≠ 0x11)

theorem MeansIn.means {inl : Int → Bool} (h : List.Forall₂ (List.Forall₂ (MeansIn env b shared inl)) L V) :
    List.Forall₂ (List.Forall₂ (Means env b shared)) L V :=
  h.imp fun _ _ h => h.imp fun _ _ h => h.1

theorem MeansIn.inline {inl : Int → Bool} (h : List.Forall₂ (List.Forall₂ (MeansIn env b shared inl)) L V) {k : Int}
    (hk : inl k = true) : inlineColumn (itemsFrom 0 L) k = true := by
  refine List.all_eq_true.mpr fun c hc => ?_
  obtain ⟨hm, hck⟩ := List.mem_filter.mp hc
  obtain ⟨r, it, _, hit, rfl⟩ := mem_itemsFrom.mp hm
  obtain ⟨p, _, _, hp⟩ := forall2_mem_left (forall2_getD h r) hit
  have : it.1 = k := by simpa [Item.cell] using hck
  simpa [Item.cell] using hp (by rw [this]; exact hk)

theorem means_without {inl : Int → Bool} (h : List.Forall₂ (List.Forall₂ (MeansIn env b shared inl)) L V)
    (cols : List Int) :
    List.Forall₂ (List.Forall₂ (MeansIn env b shared inl)) (L.map fun is => is.filter fun i => !cols.contains i.1)
      (V.without cols) := by
  refine forall2_filterMap ?_ h
  intro a c hac
  rw [hac.1.1]
  simp

theorem forall2_take {α β : Type} {R : α → β → Prop} {L : List α} {V : List β} (h : List.Forall₂ R L V) (n : Nat) :
    List.Forall₂ R (L.take n) (V.take n) := by
  induction h generalizing n with
  | nil => simp
  | cons h _ ih =>
    cases n with
    | zero => simp
    | succ n => exact .cons h (ih n)

theorem forall2_dropWhile {α β : Type} {R : α → β → Prop} {L : List (List α)} {V : List (List β)}
    (h : List.Forall₂ (List.Forall₂ R) L V) :
    List.Forall₂ (List.Forall₂ R) (L.dropWhile List.isEmpty) (V.dropWhile List.isEmpty) := by
  induction h with
  | nil => exact .nil
  | cons h t ih =>
    cases h with
    | nil => simpa using ih
    | cons h1 h2 => exact .cons (.cons h1 h2) t

theorem forall2_nonEmpty {α β : Type} [DecidableEq α] [DecidableEq β] {R : α → β → Prop} {L : List (List α)}
    {V : List (List β)} (h : List.Forall₂ (List.Forall₂ R) L V) :
    List.Forall₂ (List.Forall₂ R) (L.filter (· ≠ [])) (V.filter (· ≠ [])) := by
  induction h with
  | nil => exact .nil
  | cons h t ih =>
    cases h with
    | nil => simpa using ih
    | cons h1 h2 =>
      rw [List.filter_cons_of_pos (by simp), List.filter_cons_of_pos (by simp)]
      exact .cons (.cons h1 h2) ih

theorem itemsFrom_take (L : List (List Item)) (t : Nat) :
    (itemsFrom 0 L).filter (fun c => decide (c.row ≤ t)) = itemsFrom 0 (L.take (t + 1)) := by
  have := numberedFrom_take L t 0
  rw [Nat.zero_add] at this
  rw [← itemsFrom_zipIdx, ← itemsFrom_zipIdx]
  simpa [numberedFrom] using this

/-- `read` on the cells of rows with these values. -/
theorem readCells_values {A D : Type} {inl : Int → Bool}
    (hin : List.Forall₂ (List.Forall₂ (MeansIn env b shared inl)) L V)
    (o : ConcatOpts) (hres : V.Resolvable env o inl) (lib : Lib A D)
    (search : Str → Option (Str → Bool)) (reMatch : Str → Str → Py Bool) (args : ReadArgs D) (ha : args.Sensible)
    (hne : V.flatten ≠ []) (hdata : V.HasData env search args o) :
    readCells env lib search reMatch args (freshSeries shared b o) (itemsFrom 0 L) =
      V.table env lib search reMatch args o := by
  have h := MeansIn.means hin
  have hvals : ∀ k i, cellAt (colValues env b shared (itemsFrom 0 L) k) i = cellAt (V.column k) i := by
    intro k i
    rw [items_values h]
    unfold cellAt VGrid.column
    by_cases hi : i < V.length
    · simp [hi]
    · have h1 : V[i]? = none := List.getElem?_eq_none (by omega)
      rw [List.getElem?_eq_none (by simp; omega)]
      simp [VGrid.at, h1]
  have hlk : ∀ keys size s lk, lookupRow env o (colValues env b shared (itemsFrom 0 L)) keys size s lk =
      lookupRow env o V.column keys size s lk := by
    intro keys size s lk
    have hw : ∀ k off len, window (colValues env b shared (itemsFrom 0 L) k) off len =
        window (V.column k) off len := by
      intro k off len; simp only [window, hvals]
    cases lk <;> simp only [lookupRow, hw]
  have hne' : itemsFrom 0 L ≠ [] := by
    intro h0
    have h1 := congrArg (List.map (·.col)) h0
    rw [itemsFrom_cols, means_cols h, VGrid.cols] at h1
    exact hne (by simpa using h1)
  have := readCells_sheet env b shared o lib search reMatch args (itemsFrom 0 L) hne'
    (fun k => (resolvable_congr (hvals k) (hres k)).mono (MeansIn.inline hin)) (items_present h)
    ha.lookup ha.header (by
      intro row hr
      rw [hlk, items_seen h] at hr
      rw [items_maxSpan h]
      exact hdata row hr)
  rw [items_seen h, items_columns h, items_maxSpan h] at this
  rw [this]
  exact sheetTable_congr env lib search reMatch args o _ _ hvals _ _ _

end

end Rxls
