import Verif.Spec.Rearranged
import Verif.Props.RowFilter

/-! # C130: rearranging the columns of a sheet rearranges the columns of the table -/

namespace Rxls

theorem at_isSome (g : VGrid) (k : Int) (r : Nat) : (g.at k r).isSome = (g.getD r []).any fun p => p.1 = k := by
  exact rowAt_isSome k _

theorem mem_columns_at (g : VGrid) (k : Int) : k ∈ g.columns ↔ ∃ r, (g.at k r).isSome := by
  unfold VGrid.columns VGrid.cols
  rw [List.mem_insertionSort, List.mem_dedup, List.mem_map]
  constructor
  · rintro ⟨p, hp, rfl⟩
    obtain ⟨row, hrow, hp⟩ := List.mem_flatten.mp hp
    obtain ⟨r, hr, e⟩ := List.mem_iff_getElem.mp hrow
    refine ⟨r, ?_⟩
    rw [at_isSome, List.getD_eq_getElem?_getD, List.getElem?_eq_getElem hr]
    simp only [Option.getD_some, e, List.any_eq_true]
    exact ⟨p, hp, by simp⟩
  · rintro ⟨r, hr⟩
    rw [at_isSome, List.any_eq_true] at hr
    obtain ⟨p, hp, e⟩ := hr
    rw [List.getD_eq_getElem?_getD] at hp
    rcases h : g[r]? with _ | row
    · rw [h] at hp
      cases hp
    · rw [h] at hp
      exact ⟨p, List.mem_flatten.mpr ⟨row, List.mem_of_getElem? h, hp⟩, by simpa using e⟩

theorem columns_distinct (g : VGrid) : g.columns.Nodup :=
  (List.perm_insertionSort (· ≤ ·) _).nodup_iff.mpr (List.nodup_dedup _)

variable {σ : Equiv.Perm Int} {g g' : VGrid}

theorem Rearranged.columns (h : Rearranged σ g g') : (g.columns.map σ).Perm g'.columns := by
  rw [List.perm_ext_iff_of_nodup ((columns_distinct g).map σ.injective) (columns_distinct g')]
  intro k
  rw [List.mem_map, mem_columns_at]
  constructor
  · rintro ⟨j, hj, rfl⟩
    obtain ⟨r, hr⟩ := (mem_columns_at g j).mp hj
    exact ⟨r, by rw [h.cell]; exact hr⟩
  · rintro ⟨r, hr⟩
    refine ⟨σ.symm k, (mem_columns_at g _).mpr ⟨r, ?_⟩, by simp⟩
    rw [← h.cell]
    simpa using hr

theorem Rearranged.column (h : Rearranged σ g g') (k : Int) : g'.column (σ k) = g.column k := by
  unfold VGrid.column
  rw [h.rows]
  exact List.map_congr_left fun r _ => h.cell k r

theorem Rearranged.rowsOf (h : Rearranged σ g g') (k : Int) : g'.rowsOf (σ k) = g.rowsOf k := by
  unfold VGrid.rowsOf
  rw [h.rows]
  refine List.filter_congr fun r _ => ?_
  rw [← at_isSome, ← at_isSome, h.cell]

theorem Rearranged.span (h : Rearranged σ g g') (k : Int) : g'.span (σ k) = g.span k := by
  unfold VGrid.span
  rw [h.rowsOf]

theorem Rearranged.maxSpan (h : Rearranged σ g g') : g'.maxSpan = g.maxSpan := by
  unfold VGrid.maxSpan
  have : (g.columns.map g.span).Perm (g'.columns.map g'.span) := by
    have e := (h.columns).map g'.span
    rw [List.map_map] at e
    rwa [show g'.span ∘ σ = g.span from funext h.span] at e
  exact (this.foldr_eq (f := max) 0).symm

/-- The name of a column under a header of one row. -/
def oneName (cells : List (Option Str)) : Str := if cells.any Option.isSome then commaJoin [(cells[0]?).join] else unnamed

theorem one_names (env : Env) (o : ConcatOpts) (grid : Int → List (Option Val)) (keys : List Int) (row : Nat) :
    namesFor env o grid keys row (.rows 1) = .ok (keys.map fun k => oneName (headTexts env o (window (grid k) row 1))) := by
  unfold namesFor
  simp only [one_ne_zero, if_false]
  congr 1
  apply List.ext_getElem
  · simp
  intro j hj hj'
  have hj2 : j < keys.length := by simpa using hj'
  simp only [List.getElem_map, List.getElem_range]
  unfold headName oneName
  have e : (keys.map fun k => headTexts env o (window (grid k) row (1 : Int).toNat)).getD j [] =
      headTexts env o (window (grid keys[j]) row 1) := by
    rw [List.getD_eq_getElem?_getD, List.getElem?_eq_getElem (by simpa using hj2)]
    simp
  rw [e]
  split
  · rename_i hs
    congr 1
    simp only [Int.toNat_one, List.range_one, List.map_cons, List.map_nil, List.cons.injEq, and_true]
    unfold filledCell
    have e2 : ((keys.map fun k => headTexts env o (window (grid k) row 1)).take (j + 1)).reverse =
        headTexts env o (window (grid keys[j]) row 1) ::
          ((keys.map fun k => headTexts env o (window (grid k) row 1)).take j).reverse := by
      rw [List.take_succ_eq_append_getElem (by simpa using hj2), List.reverse_append]
      simp
    rw [e2, List.find?_cons_of_pos]
    rw [List.take_of_length_le (by rw [headTexts_length]; simp [window])]
    exact hs
  · rfl

/-- A test of names applied to the columns of both sheets. -/
theorem keysWhere_perm (test : Str → Py Bool) {l l' : List (Str × Int)} (h : l.Perm l') :
    (∃ fs fs', keysWhere test l = .ok fs ∧ keysWhere test l' = .ok fs' ∧ fs.Perm fs') ∨
      (∃ e e', keysWhere test l = .error e ∧ keysWhere test l' = .error e') := by
  have ok : ∀ l : List (Str × Int), (∀ p ∈ l, ∃ b, test p.1 = .ok b) →
      keysWhere test l = .ok ((l.filter fun p => decide (test p.1 = .ok true)).map (·.2)) := by
    intro l
    induction l with
    | nil => intro _; rfl
    | cons p l ih =>
      intro hl
      obtain ⟨b, hb⟩ := hl p (by simp)
      simp only [keysWhere, hb, ih fun q hq => hl q (by simp [hq])]
      cases b <;> simp [List.filter_cons, hb]
  have bad : ∀ l : List (Str × Int), (∃ p ∈ l, ∃ e, test p.1 = .error e) → ∃ e, keysWhere test l = .error e := by
    intro l
    induction l with
    | nil => rintro ⟨p, hp, _⟩; cases hp
    | cons q l ih =>
      rintro ⟨p, hp, e, he⟩
      simp only [keysWhere]
      rcases hq : test q.1 with e' | b
      · exact ⟨e', rfl⟩
      · rcases List.mem_cons.mp hp with rfl | hp
        · rw [hq] at he
          cases he
        · obtain ⟨e', h'⟩ := ih ⟨p, hp, e, he⟩
          exact ⟨e', by simp only [h']⟩
  by_cases hl : ∀ p ∈ l, ∃ b, test p.1 = .ok b
  · exact .inl ⟨_, _, ok l hl, ok l' fun p hp => hl p (h.mem_iff.mpr hp), (h.filter _).map _⟩
  · simp only [not_forall] at hl
    obtain ⟨p, hp, hb⟩ := hl
    have : ∃ e, test p.1 = .error e := by
      rcases hq : test p.1 with e | b
      · exact ⟨e, rfl⟩
      · exact absurd ⟨b, hq⟩ hb
    obtain ⟨e, he⟩ := bad l ⟨p, hp, this⟩
    obtain ⟨e', he'⟩ := bad l' ⟨p, h.mem_iff.mp hp, this⟩
    exact .inr ⟨e, e', he, he'⟩

/-- Masks do not depend on the order of the filters. -/
theorem combine_perm {strategy : Strategy} (hst : strategy = .and ∨ strategy = .or) (n : Nat) {bs bs' : List (List Bool)}
    (h : bs.Perm bs') (hne : bs ≠ []) (hl : ∀ b ∈ bs, b.length = n) :
    ∃ m, combineFilters strategy bs = .ok m ∧ combineFilters strategy bs' = .ok m := by
  have hne' : bs' ≠ [] := fun e => hne (by rw [e] at h; exact h.eq_nil)
  have hl' : ∀ b ∈ bs', b.length = n := fun b hb => hl b (h.mem_iff.mpr hb)
  have fin : ∀ m m' : List Bool, m.length = n → m'.length = n → (∀ i < n, m.getD i false = m'.getD i false) → m' = m := by
    intro m m' h1 h2 h3
    apply List.ext_getElem (by omega)
    intro i hi hi'
    have := h3 i (by omega)
    rw [List.getD_eq_getElem?_getD, List.getElem?_eq_getElem hi', List.getD_eq_getElem?_getD, List.getElem?_eq_getElem hi] at this
    simpa using this.symm
  rcases hst with rfl | rfl
  · obtain ⟨m, e1, e2, e3⟩ := C56_and n bs hne hl
    obtain ⟨m', e1', e2', e3'⟩ := C56_and n bs' hne' hl'
    refine ⟨m, e1, ?_⟩
    rw [e1', fin m m' e2 e2' fun i hi => ?_]
    rw [e3 i hi, e3' i hi, Bool.eq_iff_iff, List.all_eq_true, List.all_eq_true]
    exact forall_congr' fun b => by rw [h.mem_iff]
  · obtain ⟨m, e1, e2, e3⟩ := C56_or n bs hne hl
    obtain ⟨m', e1', e2', e3'⟩ := C56_or n bs' hne' hl'
    refine ⟨m, e1, ?_⟩
    rw [e1', fin m m' e2 e2' fun i hi => ?_]
    rw [e3 i hi, e3' i hi, Bool.eq_iff_iff, List.any_eq_true, List.any_eq_true]
    exact exists_congr fun b => by rw [h.mem_iff]

/-- The cast of one column, if there is one. -/
def castAt {A D : Type} (lib : Lib A D) (p : A × Option D) : Py A :=
  match p.2 with
  | none => .ok p.1
  | some d => castOne lib p.1 d

theorem castEach_ok {A D : Type} (lib : Lib A D) (b : A × Option D → A) :
    ∀ l : List (A × Option D), (∀ p ∈ l, castAt lib p = .ok (b p)) → castEach lib l = .ok (l.map b)
  | [], _ => rfl
  | (a, none) :: l, h => by
    have h1 := h (a, none) (by simp)
    simp only [castAt, Except.ok.injEq] at h1
    simp only [castEach, castEach_ok lib b l fun p hp => h p (by simp [hp]), List.map_cons, ← h1]
  | (a, some d) :: l, h => by
    have h1 := h (a, some d) (by simp)
    simp only [castAt] at h1
    simp only [castEach, h1, castEach_ok lib b l fun p hp => h p (by simp [hp]), List.map_cons]

theorem castEach_bad {A D : Type} (lib : Lib A D) :
    ∀ l : List (A × Option D), (∃ p ∈ l, ∃ e, castAt lib p = .error e) → ∃ e, castEach lib l = .error e
  | [], h => by obtain ⟨p, hp, _⟩ := h; cases hp
  | (a, none) :: l, h => by
    obtain ⟨p, hp, e, he⟩ := h
    rcases List.mem_cons.mp hp with rfl | hp
    · cases he
    · obtain ⟨e', h'⟩ := castEach_bad lib l ⟨p, hp, e, he⟩
      exact ⟨e', by simp only [castEach, h']⟩
  | (a, some d) :: l, h => by
    obtain ⟨p, hp, e, he⟩ := h
    simp only [castEach]
    rcases hq : castOne lib a d with e' | b
    · exact ⟨e', rfl⟩
    · rcases List.mem_cons.mp hp with rfl | hp
      · simp only [castAt, hq] at he
        cases he
      · obtain ⟨e', h'⟩ := castEach_bad lib l ⟨p, hp, e, he⟩
        exact ⟨e', by simp only [h']⟩

/-- Casts and the table, column by column. -/
theorem made_perm {A D : Type} (lib : Lib A D) {l l' : List (Str × A × Option D)} (h : l.Perm l') :
    SameColumns
      (match castEach lib (l.map (·.2)) with
        | .error e => .error e
        | .ok as => makeTable lib (l.map (·.1)) as)
      (match castEach lib (l'.map (·.2)) with
        | .error e => .error e
        | .ok as => makeTable lib (l'.map (·.1)) as) := by
  by_cases hl : ∀ p ∈ l, ∃ b, castAt lib p.2 = .ok b
  · let b : A × Option D → A := fun p => match castAt lib p with | .ok b => b | .error _ => p.1
    have hb : ∀ p ∈ l, castAt lib p.2 = .ok (b p.2) := by
      intro p hp
      obtain ⟨c, hc⟩ := hl p hp
      simp only [b, hc]
    have key : ∀ L : List (Str × A × Option D), (∀ p ∈ L, p ∈ l) →
        castEach lib (L.map (·.2)) = .ok (L.map fun p => b p.2) := by
      intro L hL
      rw [castEach_ok lib b, List.map_map]
      · rfl
      · intro p hp
        obtain ⟨q, hq, rfl⟩ := List.mem_map.mp hp
        exact hb q (hL q hq)
    rw [key l fun p hp => hp, key l' fun p hp => h.mem_iff.mpr hp]
    simp only [makeTable, List.length_map, ne_eq, not_true_eq_false, if_false]
    have hp : (l.map fun p => b p.2).Perm (l'.map fun p => b p.2) := h.map _
    have he : ((l.map fun p => b p.2).all fun x => (l.map fun p => b p.2).all fun y => lib.len x == lib.len y) =
        ((l'.map fun p => b p.2).all fun x => (l'.map fun p => b p.2).all fun y => lib.len x == lib.len y) := by
      rw [Bool.eq_iff_iff]
      simp only [List.all_eq_true, hp.mem_iff]
    rw [he]
    split
    · refine ⟨by simp, by simp, ?_⟩
      rw [List.zip_map', List.zip_map']
      exact h.map _
    · trivial
  · simp only [not_forall] at hl
    obtain ⟨p, hp, hn⟩ := hl
    have hbad : ∃ e, castAt lib p.2 = .error e := by
      rcases hq : castAt lib p.2 with e | b
      · exact ⟨e, rfl⟩
      · exact absurd ⟨b, hq⟩ hn
    obtain ⟨e, he⟩ := castEach_bad lib (l.map (·.2)) ⟨_, List.mem_map_of_mem hp, hbad⟩
    obtain ⟨e', he'⟩ := castEach_bad lib (l'.map (·.2)) ⟨_, List.mem_map_of_mem (h.mem_iff.mp hp), hbad⟩
    rw [he, he']
    trivial

theorem castEach_none {A D : Type} (lib : Lib A D) (l : List A) :
    castEach lib (l.map fun a => (a, none)) = .ok l := by
  rw [castEach_ok lib (·.1)]
  · simp [Function.comp_def]
  · intro p hp
    obtain ⟨a, _, rfl⟩ := List.mem_map.mp hp
    rfl

/-- The types asked for, by name. -/
def dtypeOf {D : Type} (args : DtypesArg D) (name : Str) : Option D :=
  match args with
  | .single d => some d
  | .mapping l => (l.find? fun q => q.1 = name).map (·.2)
  | _ => none

theorem applied_casts {A D : Type} (lib : Lib A D) (dt : DtypesArg D) (hd : ∀ l, dt ≠ .sequence l) (keys : List Int)
    (nm : Int → Str) (arr : Int → A) :
    applyDtypes lib (keys.map nm) (keys.map arr) dt = castEach lib (keys.map fun k => (arr k, dtypeOf dt (nm k))) := by
  cases dt with
  | none =>
    have := castEach_none (D := D) lib (keys.map arr)
    rw [List.map_map] at this
    exact this.symm
  | single d => simp [applyDtypes, dtypeOf, Function.comp_def]
  | mapping l =>
    simp only [applyDtypes, dtypeOf]
    rw [List.zip_map', List.map_map]
    rfl
  | sequence l => exact absurd rfl (hd l)

/-- **C130** for the values of sheets: with a header of one row and arguments that do not go by the position of a column,
the sheet with rearranged columns gives the columns of the table in another order. -/
theorem C130_table {A D : Type} (env : Env) (lib : Lib A D) (search : Str → Option (Str → Bool))
    (reMatch : Str → Str → Py Bool) (args : ReadArgs D) (ha : args.ByName) (o : ConcatOpts) (h : Rearranged σ g g') :
    SameColumns (g.table env lib search reMatch args o) (g'.table env lib search reMatch args o) := by
  have hc := h.columns
  have hcol := h.column
  let nm : Int → Str := fun k => oneName (headTexts env o (window (g'.column k) 0 1))
  have hnm : ∀ k, oneName (headTexts env o (window (g.column k) 0 1)) = nm (σ k) := fun k => by simp only [nm, hcol]
  unfold VGrid.table sheetTable
  simp only [ha.header, ha.lookup, lookupRow, one_names, h.maxSpan]
  generalize hoff : ((HeaderArg.rows 1).height + ((0 : Nat) : Int) + args.skipAfter).toNat = off
  generalize hlen : ((g.maxSpan : Int) - ((0 : Nat) : Int) - (HeaderArg.rows 1).height - args.skipAfter).toNat = len
  simp only [hnm]
  have tab : ∀ m, SameColumns
      (tableOf env lib o g.column g.columns (g.columns.map fun k => nm (σ k)) args.dtypes off len m)
      (tableOf env lib o g'.column g'.columns (g'.columns.map nm) args.dtypes off len m) := by
    intro m
    let arr : Int → A := fun k => lib.ofFetched (.arr (fetched env o (pickRows (g'.column k) off len m)))
    have := made_perm lib (hc.map fun k => (nm k, arr k, dtypeOf args.dtypes (nm k)))
    unfold tableOf
    have e1 := applied_casts lib args.dtypes ha.dtypes g.columns (fun k => nm (σ k)) (fun k => arr (σ k))
    have e2 := applied_casts lib args.dtypes ha.dtypes g'.columns nm arr
    have e3 : (fun k => lib.ofFetched (.arr (fetched env o (pickRows (g.column k) off len m)))) = fun k => arr (σ k) := by
      funext k
      simp only [arr, hcol]
    rw [e3, e1, e2]
    simp only [List.map_map, Function.comp_def] at this
    exact this
  have rest : ∀ fs fs' : List Int, (fs.map σ).Perm fs' → SameColumns
      (match maskFor env o g.column fs args.strategy off len with
        | .error e => .error e
        | .ok m => tableOf env lib o g.column g.columns (g.columns.map fun k => nm (σ k)) args.dtypes off len m)
      (match maskFor env o g'.column fs' args.strategy off len with
        | .error e => .error e
        | .ok m => tableOf env lib o g'.column g'.columns (g'.columns.map nm) args.dtypes off len m) := by
    intro fs fs' hp
    unfold maskFor
    by_cases hfs : fs = []
    · subst hfs
      rw [hp.nil_eq.symm]
      exact tab none
    · have hfs' : fs' ≠ [] := fun e => hfs (by rw [e] at hp; simpa using hp.eq_nil)
      have e1 : fs.isEmpty = false := by simpa using hfs
      have e2 : fs'.isEmpty = false := by simpa using hfs'
      simp only [e1, e2, Bool.false_eq_true, if_false]
      have hp2 : (fs.map fun k => presentRows env o (window (g.column k) off len)).Perm
          (fs'.map fun k => presentRows env o (window (g'.column k) off len)) := by
        have := hp.map fun k => presentRows env o (window (g'.column k) off len)
        rw [List.map_map] at this
        simpa only [Function.comp_def, hcol] using this
      obtain ⟨m, m1, m2⟩ := combine_perm ha.strategy len hp2 (by simpa using hfs) (by
        intro b hb
        obtain ⟨k, _, rfl⟩ := List.mem_map.mp hb
        simp [presentRows, fetched, materialise, resolved_length, window])
      rw [m1, m2]
      by_cases ht : trueCount m = 0
      · simp only [ht, if_true]
        trivial
      · simp only [ht, if_false]
        exact tab _
  have pats : ∀ test : Str → Py Bool, SameColumns
      (match keysWhere test ((g.columns.map fun k => nm (σ k)).zip g.columns) with
        | .error e => .error e
        | .ok fs => match maskFor env o g.column fs args.strategy off len with
          | .error e => .error e
          | .ok m => tableOf env lib o g.column g.columns (g.columns.map fun k => nm (σ k)) args.dtypes off len m)
      (match keysWhere test ((g'.columns.map nm).zip g'.columns) with
        | .error e => .error e
        | .ok fs => match maskFor env o g'.column fs args.strategy off len with
          | .error e => .error e
          | .ok m => tableOf env lib o g'.column g'.columns (g'.columns.map nm) args.dtypes off len m) := by
    intro test
    have z1 : ((g.columns.map fun k => nm (σ k)).zip g.columns) = g.columns.map fun k => (nm (σ k), k) := by
      have := List.zip_map' (f := fun k => nm (σ k)) (g := fun k : Int => k) (l := g.columns)
      simpa using this
    have z2 : ((g'.columns.map nm).zip g'.columns) = g'.columns.map fun k => (nm k, k) := by
      have := List.zip_map' (f := nm) (g := fun k : Int => k) (l := g'.columns)
      simpa using this
    have hs : ∀ L : List Int, keysWhere test (L.map fun k => (nm (σ k), σ k)) =
        (keysWhere test (L.map fun k => (nm (σ k), k))).map (List.map σ) := by
      intro L
      induction L with
      | nil => rfl
      | cons k L ih =>
        simp only [List.map_cons, keysWhere, ih]
        cases test (nm (σ k)) with
        | error e => rfl
        | ok b =>
          cases keysWhere test (L.map fun k => (nm (σ k), k)) with
          | error e => rfl
          | ok ks => cases b <;> rfl
    have hp := keysWhere_perm test (hc.map fun k => (nm k, k))
    rw [List.map_map] at hp
    simp only [Function.comp_def, hs] at hp
    rw [z1, z2]
    rcases hp with ⟨fs, fs', e1, e2, e3⟩ | ⟨e, e', e1, e2⟩
    · rw [e2]
      rcases hk : keysWhere test (g.columns.map fun k => (nm (σ k), k)) with e | ks
      · rw [hk] at e1
        cases e1
      · rw [hk] at e1
        cases e1
        exact rest ks fs' e3
    · rw [e2]
      rcases hk : keysWhere test (g.columns.map fun k => (nm (σ k), k)) with e | ks
      · trivial
      · rw [hk] at e1
        cases e1
  cases hfl : args.filters with
  | none => exact rest [] [] .nil
  | pattern q =>
    simp only [filterKeys]
    by_cases hq : q.isEmpty
    · simp only [hq, if_true]
      exact rest [] [] .nil
    · simp only [hq, if_false]
      exact pats _
  | positions l => exact absurd hfl (ha.filters l)
  | patterns l => exact pats _
  | bad => trivial

theorem at_without (g : VGrid) (cols : List Int) (k : Int) (r : Nat) :
    (g.without cols).at k r = if k ∈ cols then none else g.at k r := by
  have e : (g.without cols).getD r [] = (g.getD r []).filter fun p => decide (p.1 ∉ cols) := by
    unfold VGrid.without
    rw [List.getD_eq_getElem?_getD, List.getD_eq_getElem?_getD, List.getElem?_map]
    cases g[r]? <;> rfl
  unfold VGrid.at
  rw [e, List.find?_filter]
  by_cases hk : k ∈ cols
  · rw [if_pos hk, Option.map_eq_none_iff, List.find?_eq_none]
    intro p _ hp
    simp only [decide_not, Bool.and_eq_true, Bool.not_eq_true', decide_eq_false_iff_not, decide_eq_true_eq] at hp
    exact hp.1 (hp.2 ▸ hk)
  · rw [if_neg hk]
    congr 1
    refine List.find?_congr fun p _ => ?_
    rw [Bool.eq_iff_iff]
    simp only [decide_not, Bool.and_eq_true, Bool.not_eq_true', decide_eq_false_iff_not, decide_eq_true_eq]
    exact ⟨fun h => h.2, fun h => ⟨h ▸ hk, h⟩⟩

theorem Rearranged.without (h : Rearranged σ g g') (cols : List Int) :
    Rearranged σ (g.without cols) (g'.without (cols.map σ)) where
  rows := by simp [VGrid.without, h.rows]
  cell k r := by
    simp only [at_without, h.cell, List.mem_map_of_injective σ.injective]

theorem Rearranged.take (h : Rearranged σ g g') (n : Nat) : Rearranged σ (g.take n) (g'.take n) where
  rows := by rw [List.length_take, List.length_take, h.rows]
  cell k r := by
    unfold VGrid.at
    rw [List.getD_eq_getElem?_getD, List.getD_eq_getElem?_getD, List.getElem?_take, List.getElem?_take]
    split
    · have := h.cell k r
      unfold VGrid.at at this
      rwa [List.getD_eq_getElem?_getD, List.getD_eq_getElem?_getD] at this
    · rfl

theorem full_at (g : VGrid) (c : Int) : g.FullColumn c ↔ ∀ r < g.length, (g.at c r).isSome := by
  constructor
  · intro h r hr
    rw [at_isSome, List.getD_eq_getElem?_getD, List.getElem?_eq_getElem hr]
    obtain ⟨p, hp, e⟩ := h g[r] (List.getElem_mem hr)
    exact List.any_eq_true.mpr ⟨p, hp, by simpa using e⟩
  · intro h row hrow
    obtain ⟨r, hr, rfl⟩ := List.mem_iff_getElem.mp hrow
    have := h r hr
    rw [at_isSome, List.getD_eq_getElem?_getD, List.getElem?_eq_getElem hr] at this
    obtain ⟨p, hp, e⟩ := List.any_eq_true.mp this
    exact ⟨p, hp, by simpa using e⟩

theorem Rearranged.full (h : Rearranged σ g g') {c : Int} (hf : g.FullColumn c) : g'.FullColumn (σ c) := by
  rw [full_at] at hf ⊢
  intro r hr
  rw [h.cell]
  exact hf r (h.rows ▸ hr)

/-- **C130**, XLSX.  Rearranging the columns of a sheet rearranges the columns of the table, if the arguments go by names;
`skip_cols` is rearranged too. -/
theorem C130_xlsx {A D : Type} (env : Env) (lib : Lib A D) (search : Str → Option (Str → Bool))
    (reMatch : Str → Str → Py Bool) (toInt : Str → Option Int) (a : FileArgs D) (t : Nat)
    (hk : a.iter.skipRows = 0) (ht : a.iter.takeRows = t) (ha : a.table.Sensible) (hn : a.table.ByName) (p p' : Package)
    (hp : workbookXml ∈ p.names) (hp' : workbookXml ∈ p'.names) (isNull : Str → Bool)
    (hnull : ∀ s, isNull s = (decide (s ∈ errorTexts) || a.nulls.asks s)) (o : ConcatOpts)
    (ho : o = concatOpts a.conflict a.formats a.precision)
    (formats formats' : List StyleClass) (shared shared' : List Str) (g g' : TGrid)
    (h : p.xlsx.Holds env toInt a.iter.sheet isNull formats shared g)
    (h' : p'.xlsx.Holds env toInt a.iter.sheet isNull formats' shared' g') (W W' V V' : VGrid)
    (hW : W = g.values env isNull formats shared) (hW' : W' = g'.values env isNull formats' shared')
    (hσ : Rearranged σ W W') (c : Int) (hf : W.FullColumn c) (hc : c ∉ a.iter.skipCols)
    (hV : V = (W.without a.iter.skipCols).take (rowsTaken W.length t))
    (hV' : V' = (W'.without (a.iter.skipCols.map σ)).take (rowsTaken W'.length t))
    (hres : V.Resolvable env o g.inline) (hres' : V'.Resolvable env o g'.inline)
    (hle : 1 + a.table.skipAfter < V.length) :
    SameColumns (readFile env lib search reMatch toInt a p)
      (readFile env lib search reMatch toInt { a with iter.skipCols := a.iter.skipCols.map σ } p') := by
  have hc' : σ c ∉ a.iter.skipCols.map σ := by
    rw [List.mem_map_of_injective σ.injective]
    exact hc
  have hre : Rearranged σ V V' := by
    rw [hV, hV', hσ.rows]
    exact (hσ.without _).take _
  have hVf : V.FullColumn c := by
    rw [hV]
    exact fun row hr => without_full hf hc row (List.mem_of_mem_take hr)
  have hVf' := hre.full hVf
  have hdata : ∀ {U : VGrid} {c : Int}, U.FullColumn c → U.length = V.length →
      U.HasData env search a.table o := by
    intro U c hU hl row hrow
    simp only [hn.lookup, lookupRow, Except.ok.injEq, Option.some.injEq] at hrow
    subst hrow
    rw [full_maxSpan hU, hn.header, hl]
    simp only [HeaderArg.height, Nat.cast_zero]
    omega
  have e := C69_xlsx env lib search reMatch toInt a 0 t hk ht ha p hp isNull hnull o ho formats shared g h V
    (by rw [← hW, (full_shown hf hc t a.iter.keepEmpty).1, hV]) hres fun _ => hdata hVf rfl
  have e' := C69_xlsx env lib search reMatch toInt { a with iter.skipCols := a.iter.skipCols.map σ } 0 t hk ht ha p' hp'
    isNull hnull o ho formats' shared' g' h' V'
    (by rw [← hW', (full_shown (hσ.full hf) hc' t a.iter.keepEmpty).1, hV']) hres' fun _ => hdata hVf' hre.rows
  rw [e, e']
  have hflat : V.flatten = [] ↔ V'.flatten = [] := by
    have hcols : ∀ U : VGrid, U.flatten = [] ↔ U.columns = [] := by
      intro U
      unfold VGrid.columns VGrid.cols
      constructor
      · intro hu; rw [hu]; rfl
      · intro hu
        have := (List.perm_insertionSort (· ≤ ·) (U.flatten.map (·.1)).dedup)
        rw [hu] at this
        have := this.nil_eq.symm
        by_contra hne
        obtain ⟨q, hq⟩ := List.exists_mem_of_ne_nil _ hne
        have hm : q.1 ∈ (U.flatten.map (·.1)).dedup := List.mem_dedup.mpr (List.mem_map_of_mem hq)
        rw [this] at hm
        cases hm
    rw [hcols, hcols]
    have := hre.columns
    constructor
    · intro hu; rw [hu] at this; exact this.nil_eq.symm
    · intro hu; rw [hu] at this; simpa using this.eq_nil
  by_cases hz : V.flatten = []
  · rw [if_pos hz, if_pos (hflat.mp hz)]
    trivial
  · rw [if_neg hz, if_neg fun hu => hz (hflat.mpr hu)]
    exact C130_table env lib search reMatch a.table hn o hre

/-- **C130**, XLSB: the same. -/
theorem C130_xlsb {A D : Type} (env : Env) (lib : Lib A D) (search : Str → Option (Str → Bool))
    (reMatch : Str → Str → Py Bool) (toInt : Str → Option Int) (a : FileArgs D) (t : Nat)
    (hk : a.iter.skipRows = 0) (ht : a.iter.takeRows = t) (ha : a.table.Sensible) (hn : a.table.ByName) (p p' : Package)
    (hp : workbookXml ∉ p.names) (hp' : workbookXml ∉ p'.names) (hb : workbookBin ∈ p.names) (hb' : workbookBin ∈ p'.names)
    (o : ConcatOpts) (ho : o = concatOpts a.conflict a.formats a.precision)
    (temporal temporal' : List Bytes) (shared shared' : List Str) (g g' : Grid)
    (h : p.xlsb.Holds a.iter.sheet a.nulls.asks temporal shared g)
    (h' : p'.xlsb.Holds a.iter.sheet a.nulls.asks temporal' shared' g') (W W' V V' : VGrid)
    (hW : W = g.values temporal shared a.nulls.asks) (hW' : W' = g'.values temporal' shared' a.nulls.asks)
    (hσ : Rearranged σ W W') (c : Int) (hf : W.FullColumn c) (hc : c ∉ a.iter.skipCols)
    (hV : V = (W.without a.iter.skipCols).take (rowsTaken W.length t))
    (hV' : V' = (W'.without (a.iter.skipCols.map σ)).take (rowsTaken W'.length t))
    (hres : V.Resolvable env o g.inline) (hres' : V'.Resolvable env o g'.inline)
    (hle : 1 + a.table.skipAfter < V.length) :
    SameColumns (readFile env lib search reMatch toInt a p)
      (readFile env lib search reMatch toInt { a with iter.skipCols := a.iter.skipCols.map σ } p') := by
  have hc' : σ c ∉ a.iter.skipCols.map σ := by
    rw [List.mem_map_of_injective σ.injective]
    exact hc
  have hre : Rearranged σ V V' := by
    rw [hV, hV', hσ.rows]
    exact (hσ.without _).take _
  have hVf : V.FullColumn c := by
    rw [hV]
    exact fun row hr => without_full hf hc row (List.mem_of_mem_take hr)
  have hVf' := hre.full hVf
  have hdata : ∀ {U : VGrid} {c : Int}, U.FullColumn c → U.length = V.length →
      U.HasData env search a.table o := by
    intro U c hU hl row hrow
    simp only [hn.lookup, lookupRow, Except.ok.injEq, Option.some.injEq] at hrow
    subst hrow
    rw [full_maxSpan hU, hn.header, hl]
    simp only [HeaderArg.height, Nat.cast_zero]
    omega
  have e := C69_xlsb env lib search reMatch toInt a 0 t hk ht ha p hp hb o ho temporal shared g h V
    (by rw [← hW, (full_shown hf hc t a.iter.keepEmpty).2, hV]) hres fun _ => hdata hVf rfl
  have e' := C69_xlsb env lib search reMatch toInt { a with iter.skipCols := a.iter.skipCols.map σ } 0 t hk ht ha p' hp'
    hb' o ho temporal' shared' g' h' V'
    (by rw [← hW', (full_shown (hσ.full hf) hc' t a.iter.keepEmpty).2, hV']) hres' fun _ => hdata hVf' hre.rows
  rw [e, e']
  have hflat : V.flatten = [] ↔ V'.flatten = [] := by
    have hcols : ∀ U : VGrid, U.flatten = [] ↔ U.columns = [] := by
      intro U
      unfold VGrid.columns VGrid.cols
      constructor
      · intro hu; rw [hu]; rfl
      · intro hu
        have := (List.perm_insertionSort (· ≤ ·) (U.flatten.map (·.1)).dedup)
        rw [hu] at this
        have := this.nil_eq.symm
        by_contra hne
        obtain ⟨q, hq⟩ := List.exists_mem_of_ne_nil _ hne
        have hm : q.1 ∈ (U.flatten.map (·.1)).dedup := List.mem_dedup.mpr (List.mem_map_of_mem hq)
        rw [this] at hm
        cases hm
    rw [hcols, hcols]
    have := hre.columns
    constructor
    · intro hu; rw [hu] at this; exact this.nil_eq.symm
    · intro hu; rw [hu] at this; simpa using this.eq_nil
  by_cases hz : V.flatten = []
  · rw [if_pos hz, if_pos (hflat.mp hz)]
    trivial
  · rw [if_neg hz, if_neg fun hu => hz (hflat.mpr hu)]
    exact C130_table env lib search reMatch a.table hn o hre

/-! ## Examples -/

/-- Three columns with names; the second sheet has the last column first. -/
def exRearr : VGrid :=
  [[(0, .str ['n']), (1, .str ['m']), (2, .str ['n'])], [(0, .f8 (.fin 1)), (1, .str ['a'])],
    [(0, .f8 (.fin 2)), (2, .f8 (.fin (5 / 2)))]]

def exRearr' : VGrid :=
  [[(0, .str ['n']), (1, .str ['n']), (2, .str ['m'])], [(1, .f8 (.fin 1)), (2, .str ['a'])],
    [(0, .f8 (.fin (5 / 2))), (1, .f8 (.fin 2))]]

def exTurn : Equiv.Perm Int := Equiv.swap 0 1 * Equiv.swap 1 2

/-- Column A becomes B, B becomes C, C becomes A. -/
example : (exTurn 0, exTurn 1, exTurn 2) = (1, 2, 0) := by decide +kernel

theorem exRearr_holds : Rearranged exTurn exRearr exRearr' where
  rows := rfl
  cell k r := by
    have out : ∀ r, 3 ≤ r → ∀ k, VGrid.at exRearr' k r = none ∧ VGrid.at exRearr k r = none := by
      intro r hr k
      unfold VGrid.at
      rw [List.getD_eq_getElem?_getD, List.getElem?_eq_none (by simpa [exRearr'] using hr), List.getD_eq_getElem?_getD,
        List.getElem?_eq_none (by simpa [exRearr] using hr)]
      exact ⟨rfl, rfl⟩
    by_cases hr : 3 ≤ r
    · rw [(out r hr _).1, (out r hr _).2]
    have hr3 : r = 0 ∨ r = 1 ∨ r = 2 := by omega
    by_cases h0 : k = 0
    · subst h0
      rcases hr3 with rfl | rfl | rfl <;> decide +kernel
    by_cases h1 : k = 1
    · subst h1
      rcases hr3 with rfl | rfl | rfl <;> decide +kernel
    by_cases h2 : k = 2
    · subst h2
      rcases hr3 with rfl | rfl | rfl <;> decide +kernel
    have e : exTurn k = k := by
      simp only [exTurn, Equiv.Perm.mul_apply]
      rw [Equiv.swap_apply_of_ne_of_ne h1 h2, Equiv.swap_apply_of_ne_of_ne h0 h1]
    rw [e]
    have n : ∀ j : Int, ¬ k = j → ¬ j = k := fun j h e => h e.symm
    rcases hr3 with rfl | rfl | rfl <;>
      simp [VGrid.at, exRearr, exRearr', n 0 h0, n 1 h1, n 2 h2]

example : exKeptRead exRearr { header := .rows 1 } =
      .ok [.arr ⟨.i8, [some (.i8 1), some (.i8 2)]⟩, .arr ⟨.utf8, [some (.str ['a']), none]⟩,
        .arr ⟨.f8, [none, some (.f8 (.fin (5 / 2)))]⟩] ∧
    exKeptRead exRearr' { header := .rows 1 } =
      .ok [.arr ⟨.f8, [none, some (.f8 (.fin (5 / 2)))]⟩, .arr ⟨.i8, [some (.i8 1), some (.i8 2)]⟩,
        .arr ⟨.utf8, [some (.str ['a']), none]⟩] := by decide +kernel

/-- Why the header has one row: cells of a header of two rows are filled from the left. -/
example : (VGrid.table textEnv exLib (fun _ => none) (fun _ _ => .ok false) { header := .rows 2 } ⟨false, false, [], 6⟩
      [[(0, .str ['a'])], [(0, .str ['x']), (1, .str ['y'])], [(0, .f8 (.fin 1)), (1, .f8 (.fin 2))]]).map (·.names) =
      .ok [['a', ',', ' ', 'x'], ['a', ',', ' ', 'y']] ∧
    (VGrid.table textEnv exLib (fun _ => none) (fun _ _ => .ok false) { header := .rows 2 } ⟨false, false, [], 6⟩
      [[(1, .str ['a'])], [(1, .str ['x']), (0, .str ['y'])], [(1, .f8 (.fin 1)), (0, .f8 (.fin 2))]]).map (·.names) =
      .ok [['y'], ['a', ',', ' ', 'x']] := by decide +kernel

end Rxls
