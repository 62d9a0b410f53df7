import Verif.Lemmas.HistoryRead
import Verif.Lemmas.HGrid

/-! # What is read before a column is read, for sheets as rows of cells -/

namespace Rxls

theorem covers_congr {v w : List (Option (Nat × Option Val))} (h : ∀ i, cellAt v i = cellAt w i) (j : Nat)
    (r : Reading) : r.covers v j = r.covers w j := by
  have key : ∀ l : List (Option (Nat × Option Val)), r.covers l j = true ↔
      r.mask = none ∧ ∀ i x, cellAt l i = some (j, x) → r.off ≤ i ∧ i < r.off + r.len := by
    intro l
    unfold Reading.covers
    rw [Bool.and_eq_true, List.all_eq_true, Option.isNone_iff_eq_none]
    refine and_congr_right fun _ => ⟨fun h i x hi => ?_, fun h p hp => ?_⟩
    · have hm : (some (j, x), i) ∈ l.zipIdx := by
        rw [List.mem_zipIdx_iff_getElem?]
        unfold cellAt at hi
        cases hl : l[i]? with
        | none => rw [hl] at hi; simp at hi
        | some y => rw [hl] at hi; simpa using hi
      have := h _ hm
      simpa using this
    · obtain ⟨y, i⟩ := p
      rw [List.mem_zipIdx_iff_getElem?] at hp
      cases y with
      | none => simp
      | some y =>
        obtain ⟨a, x⟩ := y
        by_cases ha : a = j
        · subst ha
          have := h i x (by simp only at hp; simp [cellAt, hp])
          simpa using this
        · simp [ha]
  rw [Bool.eq_iff_iff, key, key]
  simp only [h]

theorem clash_congr {o : ConcatOpts} {C D : HCol} (h : ∀ i, cellAt C.rows i = cellAt D.rows i)
    (hs : ∀ j, j ∈ C.shared ↔ j ∈ D.shared) (done : List Reading) (w : Reading) : C.clash o done w = D.clash o done w := by
  have hc : ∀ j, C.shared.contains j = D.shared.contains j := by
    intro j
    rw [Bool.eq_iff_iff]
    simpa using hs j
  have hf : ∀ j, Reading.covers C.rows j = Reading.covers D.rows j := fun j => funext fun r => covers_congr h j r
  unfold HCol.clash
  simp only [pickRows_congr h, hc, hf]

theorem clashIn_congr {o : ConcatOpts} {s t : Int → HCol}
    (h : ∀ k done w, (s k).clash o done w = (t k).clash o done w) : ∀ (done ws : List Reading),
    clashIn o s done ws = clashIn o t done ws
  | _, [] => rfl
  | done, w :: ws => by rw [clashIn, clashIn, h, clashIn_congr h]

theorem mem_sharedRuns_at {α : Type} {l : List (Option (Nat × α))} {j : Nat} :
    j ∈ sharedRuns l ↔ ∃ i : Nat, (runNumbers 0 none l)[i]? = some j ∧
      (l[i]?).map (Option.map fun x : Nat × α => x.1) = some (some 0x11) := by
  rw [mem_sharedRuns]
  constructor
  · rintro ⟨v, h⟩
    obtain ⟨i, hi⟩ := List.mem_iff_getElem?.mp h
    rw [List.getElem?_zip_eq_some] at hi
    exact ⟨i, hi.1, by rw [hi.2]; rfl⟩
  · rintro ⟨i, h1, h2⟩
    cases hl : l[i]? with
    | none => rw [hl] at h2; simp at h2
    | some y =>
      rw [hl] at h2
      cases y with
      | none => simp at h2
      | some y =>
        obtain ⟨x, v⟩ := y
        simp only [Option.map_some, Option.some.injEq] at h2
        subst h2
        exact ⟨v, List.mem_iff_getElem?.mpr ⟨i, by rw [List.getElem?_zip_eq_some]; exact ⟨h1, hl⟩⟩⟩

theorem sharedRuns_tags {α β : Type} {l : List (Option (Nat × α))} {m : List (Option (Nat × β))}
    (h : l.map (Option.map (·.1)) = m.map (Option.map (·.1))) (j : Nat) : j ∈ sharedRuns l ↔ j ∈ sharedRuns m := by
  rw [mem_sharedRuns_at, mem_sharedRuns_at, runNumbers_tags l m 0 none h]
  have : ∀ i : Nat, (l[i]?).map (Option.map fun x : Nat × α => x.1) = (m[i]?).map (Option.map fun x : Nat × β => x.1) := by
    intro i
    rw [← List.getElem?_map, ← List.getElem?_map, h]
  simp only [this]

theorem sharedRuns_extended {α : Type} (l : List (Option (Nat × α))) (n j : Nat) :
    j ∈ sharedRuns l ↔ j ∈ sharedRuns (l ++ List.replicate n none) := by
  rw [mem_sharedRuns_at, mem_sharedRuns_at]
  refine exists_congr fun i => ?_
  by_cases hi : i < l.length
  · have h := congrArg (fun x => x[i]?) (runNumbers_prefix (List.replicate n (none : Option (Nat × α))) l 0 none)
    simp only [List.getElem?_take, hi, if_true] at h
    rw [h, List.getElem?_append_left hi]
  · rw [show l[i]? = none from List.getElem?_eq_none (by omega), List.getElem?_append_right (by omega),
      List.getElem?_replicate]
    by_cases h3 : i - l.length < n <;> simp [h3]

section
variable {env : Env} {b : Bool} {shared : List (Option Str)} {L : List (List Item)} {H : HGrid}

theorem hgrid_shared (h : List.Forall₂ (List.Forall₂ (HMeans env b shared)) L H) (k : Int) (j : Nat) :
    j ∈ (cellCols env b shared (itemsFrom 0 L) k).shared ↔ j ∈ (H.cols k).shared := by
  unfold cellCols HGrid.cols
  simp only
  rw [sharedRuns_extended _ (L.length - height (colCells (itemsFrom 0 L) k)), column_extended]
  apply sharedRuns_tags
  rw [HGrid.column, ← h.length_eq, List.map_map, List.map_map]
  apply List.map_congr_left
  intro r _
  simp only [Function.comp]
  rw [hgrid_at h k r]
  cases rawAt (colCells (itemsFrom 0 L) k) r <;> rfl

theorem rawAt_last {cs : List Cell} (h : 0 < height cs) : rawAt cs (height cs - 1) ≠ none := by
  obtain ⟨c, hc⟩ := find_lt cs (height cs - 1) (by omega)
  unfold rawAt
  rw [hc]
  have h1 := height_ge (List.mem_of_find?_eq_some hc)
  have h2 : height cs - 1 ≤ c.row := by simpa using List.find?_some hc
  simp only
  rw [if_pos (by omega)]
  simp

/-- `read` on the cells of these rows, exceptions included. -/
theorem readCells_outcome {A D : Type} (h : List.Forall₂ (List.Forall₂ (HMeans env b shared)) L H) (o : ConcatOpts)
    (lib : Lib A D) (search : Str → Option (Str → Bool)) (reMatch : Str → Str → Py Bool)
    (args : ReadArgs D) (ha : args.Sensible)
    (hdata : H.flatten ≠ [] → H.DataOrEnd env search reMatch args o) :
    readCells env lib search reMatch args (freshSeries shared b o) (itemsFrom 0 L) =
      H.outcome env lib search reMatch args o := by
  have hs := hmeans_shape h
  have hfl : itemsFrom 0 L = [] ↔ H.flatten = [] := by
    have h1 : (itemsFrom 0 L).map (·.col) = H.flatten.map (·.1) := by
      rw [itemsFrom_cols, same_cols hs, VGrid.cols, HGrid.shape, ← List.map_flatten, List.map_map]
      rfl
    rw [← List.map_eq_nil_iff (f := Cell.col), h1, List.map_eq_nil_iff]
  unfold HGrid.outcome
  by_cases hne : H.flatten = []
  · rw [if_pos hne, hfl.mpr hne]
    exact readCells_none ..
  · rw [if_neg hne]
    have := readCells_history env b shared o lib search reMatch args (itemsFrom 0 L) (fun h0 => hne (hfl.mp h0))
      (hgrid_valid h) ha.lookup ha.header (by
        rw [hgrid_view h, same_seen hs, same_columns hs, same_maxSpan hs]
        refine DataOrEnd.mono (hdata hne) fun k _ off hk => ?_
        by_contra hlt
        have hpos : 0 < height (colCells (itemsFrom 0 L) k) := by omega
        have := hk (height (colCells (itemsFrom 0 L) k) - 1) (by omega)
        rw [hgrid_at h, Option.map_eq_none_iff] at this
        exact rawAt_last hpos this)
    rw [hgrid_view h, same_seen hs, same_columns hs, same_maxSpan hs,
      clashIn_congr (t := H.cols) (fun k done w => clash_congr (hgrid_rows h k) (hgrid_shared h k) done w)] at this
    exact this

end

theorem sheetResult_data {A D : Type} {env : Env} {lib : Lib A D} {search : Str → Option (Str → Bool)}
    {reMatch : Str → Str → Py Bool} {args : ReadArgs D} {grid : Int → View} {order keys : List Int} {span : Int}
    (h : ∀ row : Nat, lookupRowV env grid order args.lookupSize.toNat search args.lookup = .ok (some row) →
      0 < span - row - args.header.height - args.skipAfter) :
    sheetResult env lib search reMatch args grid order keys span =
      sheetTableV env lib search reMatch args grid order keys span := by
  unfold sheetResult
  split
  · rename_i e he
    unfold sheetTableV
    rw [he]
  · rename_i he
    unfold sheetTableV
    rw [he]
  · rename_i row he
    rw [if_pos (h row he)]

theorem HGrid.HasData.orEnd {D : Type} {env : Env} {search : Str → Option (Str → Bool)} {args : ReadArgs D} {o : ConcatOpts}
    {g : HGrid} (h : g.HasData env search args o) (reMatch : Str → Str → Py Bool) :
    g.DataOrEnd env search reMatch args o := fun row hr => .inl (h row hr)

theorem span_reach {g : VGrid} {k : Int} {i : Nat} (h0 : 0 ∈ g.rowsOf k) (hi : i ∈ g.rowsOf k) : i < g.span k := by
  unfold VGrid.span
  have hs : (g.rowsOf k).Pairwise (· < ·) := List.pairwise_lt_range.filter _
  split
  · rename_i h; rw [h] at h0; simp at h0
  · rename_i r rs h
    rw [h] at h0 hi hs
    have hr : r = 0 := by
      rcases List.mem_cons.mp h0 with h | h
      · exact h.symm
      · have := (List.pairwise_cons.mp hs).1 0 h; omega
    have hl : ∀ l : List Nat, ∀ hne : l ≠ [], l.Pairwise (· < ·) → i ∈ l → i ≤ l.getLast hne := by
      intro l hne hp hm
      rw [← List.dropLast_append_getLast hne, List.mem_append] at hm
      rcases hm with hm | hm
      · rw [← List.dropLast_append_getLast hne, List.pairwise_append] at hp
        exact Nat.le_of_lt (hp.2.2 i hm _ (by simp))
      · simp only [List.mem_singleton] at hm; omega
    have := hl (r :: rs) (by simp) hs hi
    omega

theorem at_rowsOf {H : HGrid} {k : Int} {i : Nat} (h : H.at k i ≠ none) : i ∈ H.shape.rowsOf k := by
  unfold HGrid.at at h
  unfold VGrid.rowsOf HGrid.shape
  rw [List.mem_filter, List.mem_range, List.length_map]
  rw [ne_eq, Option.map_eq_none_iff, List.find?_eq_none] at h
  push Not at h
  obtain ⟨c, hc, hk⟩ := h
  have hi : i < H.length := by
    by_contra hi
    rw [List.getD_eq_default _ _ (by omega)] at hc
    simp at hc
  refine ⟨hi, List.any_eq_true.mpr ⟨(c.1, c.2.2.getD (.str [])), ?_, hk⟩⟩
  rw [List.getD_eq_getElem _ _ (by simpa using hi), List.getElem_map]
  rw [List.getD_eq_getElem _ _ hi] at hc
  exact List.mem_map_of_mem hc

/-- A column with a cell in the first row ends at the header if there are no data rows. -/
theorem first_row_end {D : Type} {env : Env} {search : Str → Option (Str → Bool)} {args : ReadArgs D} {o : ConcatOpts}
    {H : HGrid} (reMatch : Str → Str → Py Bool) (ha : args.Sensible) (hf : args.filters = .none)
    (h : H.getD 0 [] ≠ []) : H.DataOrEnd env search reMatch args o := by
  obtain ⟨c, hc⟩ := List.exists_mem_of_ne_nil _ h
  have h0 : H.at c.1 0 ≠ none := by
    unfold HGrid.at
    rw [ne_eq, Option.map_eq_none_iff, List.find?_eq_none]
    push Not
    exact ⟨c, hc, by simp⟩
  have hmem : c.1 ∈ H.shape.columns := by
    unfold VGrid.columns VGrid.cols HGrid.shape
    rw [List.mem_insertionSort, List.mem_dedup, ← List.map_flatten, List.map_map]
    refine List.mem_map.mpr ⟨c, List.mem_flatten.mpr ⟨H.getD 0 [], ?_, hc⟩, rfl⟩
    cases H with
    | nil => simp at hc
    | cons r H => simp
  intro row hr
  by_cases hl : 0 < (H.shape.maxSpan : Int) - row - args.header.height - args.skipAfter
  · exact .inl hl
  · refine .inr fun names fs hn he => ?_
    rw [hf, filterKeys] at he
    injection he with he
    subst he
    refine ⟨c.1, hmem, fun i hi => ?_⟩
    by_contra hne
    have h1 := span_reach (at_rowsOf h0) (at_rowsOf hne)
    have h2 : H.shape.span c.1 ≤ H.shape.maxSpan := by
      unfold VGrid.maxSpan
      have : ∀ (l : List Nat) (x : Nat), x ∈ l → x ≤ l.foldr max 0 := by
        intro l x hx
        induction l with
        | nil => simp at hx
        | cons y l ih =>
          rw [List.foldr_cons]
          rcases List.mem_cons.mp hx with rfl | hx
          · exact le_max_left _ _
          · exact (ih hx).trans (le_max_right _ _)
      exact this _ _ (List.mem_map_of_mem hmem)
    have := ha.header
    omega

/-- Resolution meets no shared strings if no column has both moments and shared strings. -/
theorem clashes_false {D : Type} (env : Env) (search : Str → Option (Str → Bool)) (reMatch : Str → Str → Py Bool)
    (args : ReadArgs D) (o : ConcatOpts) (H : HGrid) (h : H.Datable o) :
    H.clashes env search reMatch args o = false := by
  have key : ∀ k done w, (H.cols k).clash o done w = false := by
    intro k done w
    rw [Bool.eq_false_iff]
    intro hc
    unfold HCol.clash at hc
    simp only [Bool.and_eq_true, List.any_eq_true] at hc
    obtain ⟨⟨hd, c, hc1, hts⟩, r, hr1, hr2⟩ := hc
    have hmem : ∀ x, some x ∈ pickRows (H.cols k).rows w.off w.len w.mask → some x ∈ H.rows k := by
      intro x hx
      rw [mem_cellAt]
      unfold pickRows at hx
      split at hx
      · unfold window at hx
        obtain ⟨i, _, hi⟩ := List.mem_map.mp hx
        exact ⟨_, hi⟩
      · unfold maskedRows at hx
        obtain ⟨i, _, hi⟩ := List.mem_map.mp hx
        exact ⟨_, hi⟩
    rcases h hd k with h1 | h1
    · cases r with
      | none => simp at hr2
      | some r =>
        simp only [Option.any_some, Bool.and_eq_true] at hr2
        have hj : r.1 ∈ sharedRuns (H.column k) := by simpa [HGrid.cols] using hr2.1
        obtain ⟨v, hv⟩ := mem_sharedRuns.mp hj
        have := (List.of_mem_zip hv).2
        unfold HGrid.column at this
        obtain ⟨i, _, hi⟩ := List.mem_map.mp this
        unfold HGrid.at at hi
        obtain ⟨c, hc2, e⟩ := Option.map_eq_some_iff.mp hi
        have hrow : H.getD i [] ∈ H := by
          by_cases hlt : i < H.length
          · rw [List.getD_eq_getElem?_getD, List.getElem?_eq_getElem hlt]
            exact List.getElem_mem _
          · rw [List.getD_eq_getElem?_getD, List.getElem?_eq_none (by omega)] at hc2
            simp at hc2
        have h2 := List.all_eq_true.mp (List.all_eq_true.mp h1 _ hrow) c (List.mem_of_find?_eq_some hc2)
        have h3 := List.find?_some hc2
        simp only [decide_eq_true_eq] at h3
        simp [h3, e] at h2
    · unfold heldCells at hc1
      obtain ⟨x, hx, rfl⟩ := List.mem_map.mp hc1
      cases x with
      | none => simp [isTs] at hts
      | some x =>
        obtain ⟨j, v⟩ := x
        cases v with
        | none => simp [isTs] at hts
        | some v =>
          cases v with
          | ts n => exact h1 j n (hmem _ hx)
          | f8 x => simp [isTs] at hts
          | str x => simp [isTs] at hts
          | _ => simp [isTs] at hts
  unfold HGrid.clashes
  generalize sheetReadings env search reMatch args (H.view env o) H.shape.seen H.shape.columns H.shape.maxSpan = ws
  generalize ([] : List Reading) = done
  induction ws generalizing done with
  | nil => rfl
  | cons w ws ih => rw [clashIn, key, ih]; rfl

end Rxls
