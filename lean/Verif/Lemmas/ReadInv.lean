import Verif.Lemmas.ReadTable
import Verif.Lemmas.ReadMisc

/-! # What a returned table went through -/

namespace Rxls

theorem readColumns_inv {A D : Type} {env : Env} {lib : Lib A D} {search : Str → Option (Str → Bool)}
    {reMatch : Str → Str → Py Bool} {args : ReadArgs D} {cols : Cols} {t : Table A}
    (h : readColumns env lib search reMatch args cols = .ok t) :
    ∃ cols1 row cols2 hh names arrays, findHeader env search cols args.lookupSize args.lookup = .ok (cols1, row) ∧
      headerOf env cols1 row args.header = .ok (cols2, hh, names) ∧ makeTable lib names arrays = .ok t := by
  unfold readColumns at h
  cases h1 : maxLen cols with
  | error e => simp [h1] at h
  | ok ml =>
  simp only [h1] at h
  cases h2 : findHeader env search cols args.lookupSize args.lookup with
  | error e => simp [h2] at h
  | ok p =>
  obtain ⟨cols1, row⟩ := p
  simp only [h2] at h
  split at h
  · simp at h
  cases h3 : headerOf env cols1 row args.header with
  | error e => simp [h3] at h
  | ok p =>
  obtain ⟨cols2, hh, names⟩ := p
  simp only [h3] at h
  cases h4 : filterKeys reMatch names (sortedKeys cols2) args.filters with
  | error e => simp [h4] at h
  | ok fs =>
  simp only [h4] at h
  split at h
  · simp at h
  split at h
  · simp at h
  split at h
  · simp at h
  exact ⟨cols1, row, cols2, hh, names, _, rfl, h3, h⟩

theorem makeTable_inv {A D : Type} {lib : Lib A D} {names : List Str} {arrays : List A} {t : Table A}
    (h : makeTable lib names arrays = .ok t) : t = ⟨names, arrays⟩ ∧ names.length = arrays.length ∧
      ∀ a ∈ arrays, ∀ b ∈ arrays, lib.len a = lib.len b := by
  unfold makeTable at h
  split at h
  · simp at h
  · rename_i hl
    split at h
    · rename_i hr
      injection h with h
      refine ⟨h.symm, by simpa using hl, ?_⟩
      simpa [List.all_eq_true] using hr
    · simp at h

theorem makeTable_ok {A D : Type} {lib : Lib A D} {names : List Str} {arrays : List A}
    (hl : names.length = arrays.length) {n : Nat} (hr : ∀ a ∈ arrays, lib.len a = n) :
    makeTable lib names arrays = .ok ⟨names, arrays⟩ := by
  unfold makeTable
  rw [if_neg (by simpa using hl), if_pos]
  simp only [List.all_eq_true, beq_iff_eq]
  intro a ha b hb
  rw [hr a ha, hr b hb]

theorem onColumn_keys {α : Type} {cols cols' : Cols} {k : Int} {f : Series → Series × Py α} {a : α}
    (h : onColumn cols k f = .ok (cols', a)) : cols'.length = cols.length := by
  unfold onColumn at h
  split at h
  · simp at h
  · split at h
    · simp at h
    · injection h with h
      injection h with h _
      subst h
      simp

theorem findPattern_keys {env : Env} {f : Str → Bool} {size : Int} : ∀ (ks : List Int) {cols cols' : Cols} {r : Int},
    findPattern env f size cols ks = .ok (cols', r) → cols'.length = cols.length
  | [], cols, cols', r, h => by
    rw [findPattern] at h; injection h with h; injection h with h _; subst h; rfl
  | k :: ks, cols, cols', r, h => by
    rw [findPattern] at h
    cases h1 : onColumn cols k (textsOf env 0 size) with
    | error e => simp [h1] at h
    | ok p =>
      simp only [h1] at h
      have hl := onColumn_keys h1
      split at h
      · rw [findPattern_keys ks h, hl]
      · injection h with h; injection h with h _; subst h; exact hl

theorem findHeader_keys {env : Env} {search : Str → Option (Str → Bool)} {cols cols' : Cols} {size row : Int}
    {lk : Lookup} (h : findHeader env search cols size lk = .ok (cols', row)) : cols'.length = cols.length := by
  cases lk with
  | none => rw [findHeader] at h; injection h with h; injection h with h _; subst h; rfl
  | column k =>
    rw [findHeader] at h
    cases h1 : onColumn cols k (textsOf env 0 size) with
    | error e => simp [h1] at h
    | ok p =>
      simp only [h1] at h
      have hl := onColumn_keys h1
      split at h <;> (injection h with h; injection h with h _; subst h; exact hl)
  | pattern p =>
    rw [findHeader] at h
    split at h
    · simp at h
    · exact findPattern_keys _ h

/-! ## Types -/

theorem allSome_get {α : Type} : ∀ (l : List (Option α)) {r : List α}, allSome l = some r → l = r.map some
  | [], r, h => by rw [allSome] at h; injection h with h; subst h; rfl
  | none :: l, r, h => by simp [allSome] at h
  | some a :: l, r, h => by
    rw [allSome] at h
    cases hl : allSome l with
    | none => simp [hl] at h
    | some q =>
      rw [hl] at h
      injection h with h
      subst h
      rw [allSome_get l hl]
      rfl

theorem applyDtypes_length {A D : Type} {lib : Lib A D} {names : List Str} {arrays r : List A} {arg : DtypesArg D}
    (h : applyDtypes lib names arrays arg = .ok r) : ∀ l, arg = .sequence l → l.length = names.length := by
  intro l hll
  subst hll
  rw [applyDtypes] at h
  split at h
  · simp at h
  · rename_i hn; simpa using hn

/-- The arrays of the result, one by one. -/
theorem applyDtypes_get {A D : Type} {lib : Lib A D} {names : List Str} {arrays r : List A} {arg : DtypesArg D}
    (hl : arrays.length = names.length) (h : applyDtypes lib names arrays arg = .ok r) :
    (arrays.zipIdx.map fun p => retyped lib p.1 (wantedType names p.2 arg)) = r.map some := by
  rw [applyDtypes_pairs lib names arrays hl arg (applyDtypes_length h)] at h
  cases ha : allSome (arrays.zipIdx.map fun p => retyped lib p.1 (wantedType names p.2 arg)) with
  | none => simp [ha] at h
  | some q =>
    simp only [ha] at h
    injection h with h
    subst h
    exact allSome_get _ ha

theorem retyped_len {A D : Type} {lib : Lib A D} (hlib : lib.Lawful) {a b : A} {d : Option D}
    (h : retyped lib a d = some b) : lib.len b = lib.len a := by
  cases d with
  | none => injection h with h; rw [h]
  | some d =>
    rw [retyped] at h
    split at h
    · injection h with h; rw [h]
    · exact hlib.cast _ _ _ h

theorem applyDtypes_len {A D : Type} {lib : Lib A D} (hlib : lib.Lawful) {names : List Str} {arrays r : List A}
    {arg : DtypesArg D} (hl : arrays.length = names.length) (h : applyDtypes lib names arrays arg = .ok r) {n : Nat}
    (hn : ∀ a ∈ arrays, lib.len a = n) : r.length = arrays.length ∧ ∀ a ∈ r, lib.len a = n := by
  have hg := applyDtypes_get hl h
  refine ⟨by simpa using (congrArg List.length hg).symm, fun b hb => ?_⟩
  have : some b ∈ r.map some := List.mem_map_of_mem hb
  rw [← hg] at this
  obtain ⟨p, hp, e⟩ := List.mem_map.mp this
  rw [retyped_len hlib e]
  exact hn _ (List.fst_mem_of_mem_zipIdx hp)

theorem namesFor_length {env : Env} {p : ConcatOpts} {grid : Int → List (Option Val)} {keys : List Int} {row : Nat}
    {a : HeaderArg} {names : List Str} (h : namesFor env p grid keys row a = .ok names) :
    names.length = keys.length := by
  cases a with
  | rows n =>
    rw [namesFor] at h
    split at h <;> (injection h with h; subst h; simp)
  | names l =>
    rw [namesFor] at h
    split at h
    · simp at h
    · rename_i hl
      injection h with h; subst h; simpa using hl

/-- Names and rows always make a table, of the expected height. -/
theorem tableOf_ok {A D : Type} {lib : Lib A D} (hlib : lib.Lawful) (env : Env) (p : ConcatOpts)
    (grid : Int → List (Option Val)) (keys : List Int) (names : List Str) (hl : names.length = keys.length)
    (dtypes : DtypesArg D) (off len : Nat) (m : Option (List Bool)) {arrays : List A}
    (h : applyDtypes lib names
      (keys.map fun k => lib.ofFetched (.arr (fetched env p (pickRows (grid k) off len m)))) dtypes = .ok arrays) :
    tableOf env lib p grid keys names dtypes off len m = .ok ⟨names, arrays⟩ ∧
      ∀ a ∈ arrays, lib.len a = keptRows len m := by
  obtain ⟨h1, h2⟩ := applyDtypes_len hlib (by simp [hl]) h (n := keptRows len m) (by
    intro a ha
    obtain ⟨k, _, rfl⟩ := List.mem_map.mp ha
    rw [hlib.of, Fetched.rows, fetched, materialise, List.length_map, resolved_length, pickRows_length]
    cases m <;> rfl)
  refine ⟨?_, h2⟩
  unfold tableOf
  rw [h]
  exact makeTable_ok (by rw [h1, List.length_map, hl]) h2

/-- The steps of a table of a sheet. -/
theorem sheetTable_inv {A D : Type} {env : Env} {lib : Lib A D} {search : Str → Option (Str → Bool)}
    {reMatch : Str → Str → Py Bool} {args : ReadArgs D} {p : ConcatOpts} {values : Int → List (Option Val)}
    {order keys : List Int} {span : Int} {t : Table A}
    (h : sheetTable env lib search reMatch args p values order keys span = .ok t) :
    ∃ row names fs m arrays,
      lookupRow env p values order args.lookupSize.toNat search args.lookup = .ok (some row) ∧
      namesFor env p values keys row args.header = .ok names ∧
      filterKeys reMatch names keys args.filters = .ok fs ∧
      maskFor env p values fs args.strategy (args.header.height + row + args.skipAfter).toNat
        (span - row - args.header.height - args.skipAfter).toNat = .ok m ∧
      applyDtypes lib names (keys.map fun k => lib.ofFetched (.arr (fetched env p (pickRows (values k)
        (args.header.height + row + args.skipAfter).toNat
        (span - row - args.header.height - args.skipAfter).toNat m)))) args.dtypes = .ok arrays ∧
      t = ⟨names, arrays⟩ := by
  unfold sheetTable at h
  split at h
  · simp at h
  · simp at h
  rename_i row h1
  split at h
  · simp at h
  rename_i names h2
  split at h
  · simp at h
  rename_i fs h3
  simp only at h
  split at h
  · simp at h
  rename_i m h4
  unfold tableOf at h
  split at h
  · simp at h
  rename_i arrays h5
  exact ⟨row, names, fs, m, arrays, h1, h2, h3, h4, h5, (makeTable_inv h).1⟩

/-! ## Tables over views -/

theorem namesForV_length {env : Env} {grid : Int → View} {keys : List Int} {row : Nat} {a : HeaderArg}
    {names : List Str} (h : namesForV env grid keys row a = .ok names) : names.length = keys.length := by
  cases a with
  | rows n =>
    rw [namesForV] at h
    split at h <;> (injection h with h; subst h; simp)
  | names l =>
    rw [namesForV] at h
    split at h
    · simp at h
    · rename_i hl
      injection h with h; subst h; simpa using hl

/-- The steps of a table of a sheet. -/
theorem sheetTableV_inv {A D : Type} {env : Env} {lib : Lib A D} {search : Str → Option (Str → Bool)}
    {reMatch : Str → Str → Py Bool} {args : ReadArgs D} {grid : Int → View}
    {order keys : List Int} {span : Int} {t : Table A}
    (h : sheetTableV env lib search reMatch args grid order keys span = .ok t) :
    ∃ row names fs m arrays,
      lookupRowV env grid order args.lookupSize.toNat search args.lookup = .ok (some row) ∧
      namesForV env grid keys row args.header = .ok names ∧
      filterKeys reMatch names keys args.filters = .ok fs ∧
      maskForV grid fs args.strategy (args.header.height + row + args.skipAfter).toNat
        (span - row - args.header.height - args.skipAfter).toNat = .ok m ∧
      applyDtypes lib names (keys.map fun k => lib.ofFetched (.arr (grid k
        (args.header.height + row + args.skipAfter).toNat
        (span - row - args.header.height - args.skipAfter).toNat m))) args.dtypes = .ok arrays ∧
      t = ⟨names, arrays⟩ := by
  unfold sheetTableV at h
  split at h
  · simp at h
  · simp at h
  rename_i row h1
  split at h
  · simp at h
  rename_i names h2
  split at h
  · simp at h
  rename_i fs h3
  simp only at h
  split at h
  · simp at h
  rename_i m h4
  unfold tableOfV at h
  split at h
  · simp at h
  rename_i arrays h5
  exact ⟨row, names, fs, m, arrays, h1, h2, h3, h4, h5, (makeTable_inv h).1⟩

theorem resolvedHeld_length (env : Env) (o : ConcatOpts) (rows : List (Option (Nat × Option Val))) :
    (resolvedHeld env o rows).length = rows.length := by
  unfold resolvedHeld
  split
  · split <;> simp
  · split <;> simp

theorem heldView_length (env : Env) (o : ConcatOpts) (b : Bool) (shared : List (Option Str)) (cells : List Cell) (k : Int)
    (off len : Nat) (m : Option (List Bool)) :
    (heldView env o b shared cells k off len m).vals.length = keptRows len m := by
  rw [heldView, fetchedHeld, List.length_map, resolvedHeld_length, pickRows_length]
  cases m <;> rfl

end Rxls
