import Verif.Props.Strategies

/-!
# Property C143: more row filters

With the strategy `or` every further filter column can only add rows, with `and` it can only take rows away.
-/

namespace Rxls

theorem fold_or : ∀ (bs : List (List Bool)) {acc m : List Bool}, foldBools acc (bs.map fun x => (.or, x)) = .ok m →
    m.length = acc.length ∧ (∀ b ∈ bs, b.length = acc.length) ∧
      ∀ i : Nat, m[i]? = some true ↔ acc[i]? = some true ∨ ∃ b ∈ bs, b[i]? = some true
  | [], acc, m, h => by
    simp only [List.map_nil, foldBools] at h
    cases h
    simp
  | b :: bs, acc, m, h => by
    simp only [List.map_cons, foldBools, zipBools] at h
    split at h
    · cases h
    · rename_i e
      split at e
      · rename_i hlen
        cases e
        obtain ⟨h1, h2, h3⟩ := fold_or bs h
        have hz : (List.zipWith (if RowOp.or = .and then Bool.and else Bool.or) acc b).length = acc.length := by
          simp [hlen]
        rw [hz] at h1 h2
        refine ⟨h1, ?_, fun i => ?_⟩
        · intro c hc
          rcases List.mem_cons.mp hc with rfl | hc
          · exact hlen.symm
          · exact h2 c hc
        · rw [h3, List.getElem?_zipWith]
          have hi : acc[i]? = none ↔ b[i]? = none := by simp [List.getElem?_eq_none_iff, hlen]
          cases ha : acc[i]? with
          | none => simp [hi.mp ha]
          | some x =>
            cases hb : b[i]? with
            | none => rw [hi.mpr hb] at ha; cases ha
            | some y => cases x <;> cases y <;> simp [hb]
      · cases e

theorem fold_and : ∀ (bs : List (List Bool)) {acc m : List Bool}, foldBools acc (bs.map fun x => (.and, x)) = .ok m →
    m.length = acc.length ∧ (∀ b ∈ bs, b.length = acc.length) ∧
      ∀ i : Nat, m[i]? = some true ↔ acc[i]? = some true ∧ ∀ b ∈ bs, b[i]? = some true
  | [], acc, m, h => by
    simp only [List.map_nil, foldBools] at h
    cases h
    simp
  | b :: bs, acc, m, h => by
    simp only [List.map_cons, foldBools, zipBools] at h
    split at h
    · cases h
    · rename_i e
      split at e
      · rename_i hlen
        cases e
        obtain ⟨h1, h2, h3⟩ := fold_and bs h
        have hz : (List.zipWith (if True then Bool.and else Bool.or) acc b).length = acc.length := by
          simp [hlen]
        rw [hz] at h1 h2
        refine ⟨h1, ?_, fun i => ?_⟩
        · intro c hc
          rcases List.mem_cons.mp hc with rfl | hc
          · exact hlen.symm
          · exact h2 c hc
        · rw [h3, List.getElem?_zipWith]
          have hi : acc[i]? = none ↔ b[i]? = none := by simp [List.getElem?_eq_none_iff, hlen]
          cases ha : acc[i]? with
          | none => simp [hi.mp ha]
          | some x =>
            cases hb : b[i]? with
            | none => rw [hi.mpr hb] at ha; cases ha
            | some y => cases x <;> cases y <;> simp [hb]
      · cases e

/-- What `or` makes of some arrays. -/
theorem combine_or {bs : List (List Bool)} {m : List Bool} (h : combineFilters .or bs = .ok m) :
    (∀ b ∈ bs, b.length = m.length) ∧ ∀ i : Nat, m[i]? = some true ↔ ∃ b ∈ bs, b[i]? = some true := by
  cases bs with
  | nil => cases h
  | cons b bs =>
    have h' : foldBools b (bs.map fun x => (.or, x)) = .ok m := by
      cases bs with
      | nil => exact h
      | cons c cs => exact h
    obtain ⟨h1, h2, h3⟩ := fold_or bs h'
    refine ⟨fun c hc => ?_, fun i => by rw [h3]; simp⟩
    rcases List.mem_cons.mp hc with rfl | hc
    · exact h1.symm
    · rw [h1]; exact h2 c hc

/-- What `and` makes of some arrays. -/
theorem combine_and {bs : List (List Bool)} {m : List Bool} (h : combineFilters .and bs = .ok m) :
    (∀ b ∈ bs, b.length = m.length) ∧ ∀ i : Nat, m[i]? = some true ↔ ∀ b ∈ bs, b[i]? = some true := by
  cases bs with
  | nil => cases h
  | cons b bs =>
    have h' : foldBools b (bs.map fun x => (.and, x)) = .ok m := by
      cases bs with
      | nil => exact h
      | cons c cs => exact h
    obtain ⟨h1, h2, h3⟩ := fold_and bs h'
    refine ⟨fun c hc => ?_, fun i => by rw [h3]; simp⟩
    rcases List.mem_cons.mp hc with rfl | hc
    · exact h1.symm
    · rw [h1]; exact h2 c hc

theorem maskForV_some {grid : Int → View} {fs : List Int} {st : Strategy} {off len : Nat} {m : Option (List Bool)}
    (hfs : fs ≠ []) (h : maskForV grid fs st off len = .ok m) :
    ∃ a, m = some a ∧ combineFilters st (fs.map fun k => (grid k off len none).vals.map present) = .ok a := by
  unfold maskForV at h
  rw [if_neg (by simpa using hfs)] at h
  split at h
  · cases h
  · rename_i a e
    split at h
    · cases h
    · cases h; exact ⟨a, rfl, e⟩

/-- C143.  The rows kept by the filter columns are kept by more filter columns under `or`, and the rows kept by more filter
columns are kept by fewer under `and`.  The columns may have any contents. -/
theorem C143_mask (grid : Int → View) (fs fs' : List Int) (hfs : fs ≠ []) (hsub : fs ⊆ fs') (off len : Nat) :
    (∀ m m', maskForV grid fs .or off len = .ok m → maskForV grid fs' .or off len = .ok m' →
      ∃ a a', m = some a ∧ m' = some a' ∧ Within a a') ∧
    (∀ m m', maskForV grid fs .and off len = .ok m → maskForV grid fs' .and off len = .ok m' →
      ∃ a a', m = some a ∧ m' = some a' ∧ Within a' a) := by
  have hfs' : fs' ≠ [] := by
    obtain ⟨k, hk⟩ := List.exists_mem_of_ne_nil fs hfs
    exact List.ne_nil_of_mem (hsub hk)
  have hlen : ∀ {st a a'} {f : Int → List Bool}, st = Strategy.or ∨ st = .and → combineFilters st (fs.map f) = .ok a →
      combineFilters st (fs'.map f) = .ok a' → a.length = a'.length := by
    intro st a a' f hst h h'
    obtain ⟨k, hk⟩ := List.exists_mem_of_ne_nil fs hfs
    have h1 : f k ∈ fs.map f := List.mem_map.mpr ⟨k, hk, rfl⟩
    have h2 : f k ∈ fs'.map f := List.mem_map.mpr ⟨k, hsub hk, rfl⟩
    rcases hst with rfl | rfl
    · rw [← (combine_or h).1 _ h1, ← (combine_or h').1 _ h2]
    · rw [← (combine_and h).1 _ h1, ← (combine_and h').1 _ h2]
  constructor
  · intro m m' h h'
    obtain ⟨a, rfl, e⟩ := maskForV_some hfs h
    obtain ⟨a', rfl, e'⟩ := maskForV_some hfs' h'
    refine ⟨a, a', rfl, rfl, hlen (.inl rfl) e e', fun i hi => ?_⟩
    obtain ⟨b, hb, hbi⟩ := ((combine_or e).2 i).mp hi
    obtain ⟨k, hk, rfl⟩ := List.mem_map.mp hb
    exact ((combine_or e').2 i).mpr ⟨_, List.mem_map.mpr ⟨k, hsub hk, rfl⟩, hbi⟩
  · intro m m' h h'
    obtain ⟨a, rfl, e⟩ := maskForV_some hfs h
    obtain ⟨a', rfl, e'⟩ := maskForV_some hfs' h'
    refine ⟨a, a', rfl, rfl, (hlen (.inr rfl) e e').symm, fun i hi => ?_⟩
    refine ((combine_and e).2 i).mpr fun b hb => ?_
    obtain ⟨k, hk, rfl⟩ := List.mem_map.mp hb
    exact ((combine_and e').2 i).mp hi _ (List.mem_map.mpr ⟨k, hsub hk, rfl⟩)

/-- C143.  Two reads of the same cells that differ in `row_filters`, where the second has all filter columns of the first,
and both give a table: the names are the same; with `or` the second table is at least as long, with `and` at most as
long. -/
theorem C143_rows {A D : Type} (env : Env) (b : Bool) (shared : List (Option Str)) (o : ConcatOpts)
    (lib : Lib A D) (hlib : lib.Lawful) (search : Str → Option (Str → Bool)) (reMatch : Str → Str → Py Bool)
    (args : ReadArgs D) (f : RowFilters) (cells : List Cell) (hne : cells ≠ [])
    (hv : ValidCells env b shared cells) (ha : args.Sensible) (row : Nat)
    (hrow : lookupRowV env (heldView env o b shared cells) (firstSeen cells) args.lookupSize.toNat search args.lookup =
      .ok (some row))
    (hlen : 0 < maxSpan cells - row - args.header.height - args.skipAfter) (t t' : Table A)
    (h : readCells env lib search reMatch args (freshSeries shared b o) cells = .ok t)
    (h' : readCells env lib search reMatch { args with filters := f } (freshSeries shared b o) cells = .ok t')
    (hs : ∀ fs fs', filterKeys reMatch t.names (columnsOf cells) args.filters = .ok fs →
      filterKeys reMatch t.names (columnsOf cells) f = .ok fs' → fs ≠ [] ∧ fs ⊆ fs') :
    t.names = t'.names ∧
      (args.strategy = .or → ∀ x ∈ t.arrays, ∀ y ∈ t'.arrays, lib.len x ≤ lib.len y) ∧
      (args.strategy = .and → ∀ x ∈ t.arrays, ∀ y ∈ t'.arrays, lib.len y ≤ lib.len x) := by
  have ha' : ({ args with filters := f } : ReadArgs D).Sensible := ⟨ha.lookup, ha.header⟩
  obtain ⟨_, _, fs, m, g1, g2, g3⟩ := C57_held_row_count env b shared o lib hlib search reMatch args cells hne hv ha row
    hrow hlen t h
  obtain ⟨_, _, fs', m', k1, k2, k3⟩ := C57_held_row_count env b shared o lib hlib search reMatch
    { args with filters := f } cells hne hv ha' row hrow hlen t' h'
  have hnm : t.names = t'.names := by
    have hd : ∀ r : Nat, lookupRowV env (heldView env o b shared cells) (firstSeen cells)
      args.lookupSize.toNat search args.lookup = .ok (some r) →
      0 < maxSpan cells - r - args.header.height - args.skipAfter := by
      intro r hr
      rw [hrow] at hr
      injection hr with hr
      injection hr with hr
      subst hr
      exact hlen
    rw [C68_history env b shared o lib search reMatch args cells hne hv ha hd] at h
    rw [C68_history env b shared o lib search reMatch { args with filters := f } cells hne hv ha' hd] at h'
    split at h
    · simp at h
    split at h'
    · simp at h'
    obtain ⟨r, n, _, _, _, p1, p2, _, _, _, rfl⟩ := sheetTableV_inv h
    obtain ⟨r', n', _, _, _, q1, q2, _, _, _, rfl⟩ := sheetTableV_inv h'
    rw [p1] at q1
    injection q1 with q1
    injection q1 with q1
    subst q1
    rw [p2] at q2
    injection q2 with q2
  rw [← hnm] at k1
  obtain ⟨hfs, hsub⟩ := hs fs fs' g1 k1
  obtain ⟨hor, hand⟩ := C143_mask (heldView env o b shared cells) fs fs' hfs hsub
    (args.header.height + row + args.skipAfter).toNat (maxSpan cells - row - args.header.height - args.skipAfter).toNat
  refine ⟨hnm, fun hst x hx y hy => ?_, fun hst x hx y hy => ?_⟩
  · rw [g3 x hx, k3 y hy]
    rw [hst] at g2
    simp only [hst] at k2
    obtain ⟨a, a', rfl, rfl, hw⟩ := hor m m' g2 k2
    exact hw.count
  · rw [g3 x hx, k3 y hy]
    rw [hst] at g2
    simp only [hst] at k2
    obtain ⟨a, a', rfl, rfl, hw⟩ := hand m m' g2 k2
    exact hw.count

/-- C143.  The rows of a sheet that are read (C128) with fewer filter columns are among those read with more under `or`,
and the other way round under `and`; in the same order. -/
theorem C143_kept (g : VGrid) (top : Nat) (fs fs' : List Int) (hsub : fs ⊆ fs') :
    (g.kept top .or fs).Sublist (g.kept top .or fs') ∧ (g.kept top .and fs').Sublist (g.kept top .and fs) := by
  constructor
  · refine List.monotone_filter_right _ fun row hr => ?_
    simp only [rowKept, List.any_eq_true] at hr ⊢
    obtain ⟨k, hk, h⟩ := hr
    exact ⟨k, hsub hk, h⟩
  · refine List.monotone_filter_right _ fun row hr => ?_
    simp only [rowKept, List.all_eq_true] at hr ⊢
    exact fun k hk => hr k (hsub hk)

/-- More positions are more filter columns. -/
theorem C143_positions (reMatch : Str → Str → Py Bool) (names : List Str) (keys : List Int) (l l' : List Int) (h : l ⊆ l')
    (fs fs' : List Int) (h1 : filterKeys reMatch names keys (.positions l) = .ok fs)
    (h2 : filterKeys reMatch names keys (.positions l') = .ok fs') : fs ⊆ fs' := by
  simp only [filterKeys] at h1 h2
  cases h1
  cases h2
  intro k hk
  obtain ⟨q, hq, rfl⟩ := List.mem_map.mp hk
  rw [List.mem_filter] at hq
  refine List.mem_map.mpr ⟨q, List.mem_filter.mpr ⟨hq.1, ?_⟩, rfl⟩
  simp only [List.contains_iff_mem] at hq ⊢
  exact h hq.2

/-! ## Examples -/

example : filterKeys (fun _ _ => .ok false) [] [2, 5, 7] (.positions [1]) = .ok [5] ∧
    filterKeys (fun _ _ => .ok false) [] [2, 5, 7] (.positions [1, 0]) = .ok [2, 5] := by decide

example : combineFilters .or [[true, false, false]] = .ok [true, false, false] ∧
    combineFilters .or [[true, false, false], [false, false, true]] = .ok [true, false, true] ∧
    combineFilters .and [[true, false, true], [false, false, true]] = .ok [false, false, true] := by decide

/-- With a list of operators both can happen: `a and b`, `a and b or c`, `a or b and c`. -/
example : combineFilters (.ops [.and]) [[true, false], [false, false]] = .ok [false, false] ∧
    combineFilters (.ops [.and, .or]) [[true, false], [false, false], [false, true]] = .ok [false, true] ∧
    combineFilters (.ops [.or, .and]) [[true, false], [false, false], [false, true]] = .ok [false, false] := by decide

/-- One filter column more under `or`, and under `and`, in a sheet of three rows. -/
example : VGrid.kept 1 .or [0] [[(0, .str ['a']), (1, .str ['b'])], [(0, .f8 (.fin 1))], [(1, .f8 (.fin 2))]] =
      [[(0, .f8 (.fin 1))]] ∧
    VGrid.kept 1 .or [0, 1] [[(0, .str ['a']), (1, .str ['b'])], [(0, .f8 (.fin 1))], [(1, .f8 (.fin 2))]] =
      [[(0, .f8 (.fin 1))], [(1, .f8 (.fin 2))]] ∧
    VGrid.kept 1 .and [0, 1] [[(0, .str ['a']), (1, .str ['b'])], [(0, .f8 (.fin 1))], [(1, .f8 (.fin 2))]] = [] := by
  decide +kernel

end Rxls
