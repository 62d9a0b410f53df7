import Verif.Props.Held

/-! # Property C90: the rows of the table are rows of the sheet -/

namespace Rxls

theorem height_mono {cs ds : List Cell} (h : ∀ c ∈ cs, c ∈ ds) : height cs ≤ height ds := by
  induction cs with
  | nil => exact Nat.zero_le _
  | cons c cs ih =>
    have h1 := height_ge (h c (by simp))
    have h2 := ih fun d hd => h d (by simp [hd])
    unfold height at h1 h2 ⊢
    simp only [List.map_cons, List.foldr_cons]
    omega

theorem maxSpan_le_height (cells : List Cell) : maxSpan cells ≤ height cells := by
  unfold maxSpan
  rcases (foldr_max_spec (spanOf cells) (columnsOf cells)).2 with ⟨k, _, e⟩ | e
  · rw [e]
    unfold spanOf
    have := height_mono (cs := colCells cells k) (ds := cells) fun c hc => (List.mem_filter.mp hc).1
    cases hc : colCells cells k with
    | nil => simp
    | cons c cs => rw [hc] at this; simp only; omega
  · omega

/-- C90, exactly: without filters all rows of the table are rows of the sheet iff the greatest span of a column and the
rows by which the offset is below zero fit into the sheet. -/
theorem C90_exact {A D : Type} (env : Env) (b : Bool) (shared : List (Option Str)) (o : ConcatOpts)
    (lib : Lib A D) (hlib : lib.Lawful) (search : Str → Option (Str → Bool)) (reMatch : Str → Str → Py Bool)
    (args : ReadArgs D) (cells : List Cell) (hne : cells ≠ [])
    (hv : ValidCells env b shared cells) (ha : args.Sensible) (hfl : args.filters = .none) (row : Nat)
    (hrow : lookupRowV env (heldView env o b shared cells) (firstSeen cells) args.lookupSize.toNat search args.lookup =
      .ok (some row))
    (hlen : args.header.height + row + args.skipAfter < maxSpan cells) (t : Table A)
    (h : readCells env lib search reMatch args (freshSeries shared b o) cells = .ok t) (a : A) (hat : a ∈ t.arrays) :
    (args.header.height + row + args.skipAfter).toNat + lib.len a ≤ height cells ↔
      maxSpan cells + (-(args.header.height + row + args.skipAfter)).toNat ≤ height cells := by
  obtain ⟨_, _, fs, m, g1, g2, g3⟩ := C57_held_row_count env b shared o lib hlib search reMatch args cells hne hv ha row
    hrow (by omega) t h
  rw [hfl, filterKeys] at g1
  injection g1 with g1
  subst g1
  rw [maskForV, if_pos (by rfl)] at g2
  injection g2 with g2
  subst g2
  rw [g3 a hat]
  simp only
  omega

/-- C90, partial: they are if no more rows are taken back than the header has.  Missing: more negative numbers of rows to
skip. -/
theorem C90_rows_exist_partial {A D : Type} (env : Env) (b : Bool) (shared : List (Option Str)) (o : ConcatOpts)
    (lib : Lib A D) (hlib : lib.Lawful) (search : Str → Option (Str → Bool)) (reMatch : Str → Str → Py Bool)
    (args : ReadArgs D) (cells : List Cell) (hne : cells ≠ [])
    (hv : ValidCells env b shared cells) (ha : args.Sensible) (hfl : args.filters = .none) (row : Nat)
    (hrow : lookupRowV env (heldView env o b shared cells) (firstSeen cells) args.lookupSize.toNat search args.lookup =
      .ok (some row))
    (hlen : args.header.height + row + args.skipAfter < maxSpan cells) (h0 : 0 ≤ args.header.height + args.skipAfter)
    (t : Table A)
    (h : readCells env lib search reMatch args (freshSeries shared b o) cells = .ok t) :
    ∀ a ∈ t.arrays, (args.header.height + row + args.skipAfter).toNat + lib.len a ≤ height cells := by
  intro a hat
  rw [C90_exact env b shared o lib hlib search reMatch args cells hne hv ha hfl row hrow hlen t h a hat]
  have := maxSpan_le_height cells
  omega

/-- C90.  Rows of the table that are not in the sheet are null in every column. -/
theorem C90_extra_rows_null {A D : Type} (env : Env) (b : Bool) (shared : List (Option Str)) (o : ConcatOpts)
    (lib : Lib A D) (search : Str → Option (Str → Bool)) (reMatch : Str → Str → Py Bool)
    (args : ReadArgs D) (cells : List Cell) (hne : cells ≠ [])
    (hv : ValidCells env b shared cells) (ha : args.Sensible) (hdt : args.dtypes = .none) (hfl : args.filters = .none)
    (row : Nat)
    (hrow : lookupRowV env (heldView env o b shared cells) (firstSeen cells) args.lookupSize.toNat search args.lookup =
      .ok (some row))
    (hlen : args.header.height + row + args.skipAfter < maxSpan cells) (t : Table A)
    (h : readCells env lib search reMatch args (freshSeries shared b o) cells = .ok t) :
    ∃ arrs : List Arr, t.arrays = arrs.map (fun a => lib.ofFetched (.arr a)) ∧ ∀ a ∈ arrs, ∀ i,
      height cells ≤ (args.header.height + row + args.skipAfter).toNat + i → (a.vals[i]?).join = none := by
  rw [C68_history env b shared o lib search reMatch args cells hne hv ha (by
    intro r hr
    rw [hrow] at hr
    injection hr with hr
    injection hr with hr
    subst hr
    omega)] at h
  split at h
  · simp at h
  obtain ⟨r, names, fs, m, arrays, g1, g2, g3, g4, g5, rfl⟩ := sheetTableV_inv h
  rw [hrow] at g1
  injection g1 with g1
  injection g1 with g1
  subst g1
  rw [hfl, filterKeys] at g3
  injection g3 with g3
  subst g3
  rw [maskForV, if_pos (by rfl)] at g4
  injection g4 with g4
  subst g4
  rw [hdt, applyDtypes] at g5
  injection g5 with g5
  subst g5
  refine ⟨(columnsOf cells).map fun k => heldView env o b shared cells k
    (args.header.height + row + args.skipAfter).toNat
    (maxSpan cells - row - args.header.height - args.skipAfter).toNat none, by rw [List.map_map]; rfl, ?_⟩
  intro a ham i hi
  obtain ⟨k, hk, rfl⟩ := List.mem_map.mp ham
  generalize (args.header.height + row + args.skipAfter).toNat = off at hi ⊢
  generalize (maxSpan cells - row - args.header.height - args.skipAfter).toNat = len
  have hnone : ∀ x, (window (heldRows env b shared (rawColumn (colCells cells k))) off len)[i]? = some x → x = none := by
    intro x hx
    unfold window at hx
    rw [List.getElem?_map] at hx
    obtain ⟨y, hy, rfl⟩ := Option.map_eq_some_iff.mp hx
    obtain ⟨hl, rfl⟩ := List.getElem?_eq_some_iff.mp hy
    rw [List.getElem_range]
    unfold cellAt heldRows
    have hh := height_mono (cs := colCells cells k) (ds := cells) fun c hc => (List.mem_filter.mp hc).1
    rw [List.getElem?_eq_none (by simp [rawColumn]; omega)]
    rfl
  have hres : ∀ (l : List (Option (Nat × Option Val))), (∀ x, l[i]? = some x → x = none) →
      ∀ x, (resolvedHeld env o l)[i]? = some x → x = none := by
    intro l hl x hx
    unfold resolvedHeld at hx
    split at hx
    · split at hx <;>
      · rw [List.getElem?_map] at hx
        obtain ⟨y, hy, rfl⟩ := Option.map_eq_some_iff.mp hx
        rw [hl y hy]; rfl
    · split at hx <;>
      · rw [List.getElem?_map] at hx
        obtain ⟨y, hy, rfl⟩ := Option.map_eq_some_iff.mp hx
        rw [hl y hy]; rfl
  simp only [heldView, fetchedHeld, pickRows, List.getElem?_map]
  cases hx : (resolvedHeld env o (window (heldRows env b shared (rawColumn (colCells cells k))) off len))[i]? with
  | none => rfl
  | some x => rw [hres _ hnone x hx]; rfl

/-- `read` on a sheet with the names `a`, `b` in row 0 and numbers in rows 1 and 2. -/
def exOffset (args : ReadArgs DType) : Py (Table Fetched) :=
  exRead args [tx 0 0 ['a'], tx 0 1 ['b'], nm 1 0 1, nm 1 1 2, nm 2 0 3, nm 2 1 4]

/-- Finding, C90 fails: a negative number of rows to skip, if it takes back more than the header, adds rows that the sheet
does not have; so does a negative number of header rows, which moreover takes the names from other rows. -/
theorem C90_extra_rows_finding :
    exOffset { header := .rows 1, skipAfter := -1 } = .ok ⟨[['a'], ['b']],
      [.arr ⟨.utf8, [some (.str ['a']), some (.str ['1']), some (.str ['3'])]⟩,
      .arr ⟨.utf8, [some (.str ['b']), some (.str ['2']), some (.str ['4'])]⟩]⟩ ∧
    (exOffset { header := .rows 1, skipAfter := -3 }).map (·.arrays) = .ok
      [.arr ⟨.utf8, [some (.str ['a']), some (.str ['1']), some (.str ['3']), none, none]⟩,
      .arr ⟨.utf8, [some (.str ['b']), some (.str ['2']), some (.str ['4']), none, none]⟩] ∧
    exRead { header := .rows (-1) } [tx 0 0 ['a'], tx 1 0 ['b'], tx 2 0 ['c'], tx 0 1 ['d'], tx 1 1 ['e']] =
      .ok ⟨[['a', ',', ' ', 'b'], ['d']],
        [.arr ⟨.utf8, [some (.str ['a']), some (.str ['b']), some (.str ['c']), none]⟩,
          .arr ⟨.utf8, [some (.str ['d']), some (.str ['e']), none, none]⟩]⟩ ∧
    exOffset { header := .rows (-1) } = .error .valueError := by
  decide +kernel

/-- On a sheet whose columns begin below row 0 the negative number brings back rows that are lost without it (C58). -/
example : exSkip 0 = .ok [.arr ⟨.i8, [none, none, none, some (.i8 1), some (.i8 2)]⟩] ∧
    exSkip (-3) = .ok [.arr ⟨.i8, [none, none, none, some (.i8 1), some (.i8 2), some (.i8 3), some (.i8 4), some (.i8 5)]⟩] ∧
    maxSpan [nm 3 0 1, nm 4 0 2, nm 5 0 3, nm 6 0 4, nm 7 0 5] = 5 ∧
    height [nm 3 0 1, nm 4 0 2, nm 5 0 3, nm 6 0 4, nm 7 0 5] = 8 := by
  decide +kernel

end Rxls
