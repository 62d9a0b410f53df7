import Verif.Spec.Again
import Verif.Lemmas.RoundAgain
import Verif.Props.Stored

/-! # Property C124: what was read, stored and read again, is the same -/

namespace Rxls

theorem toI64_range (x : F64) : -(2 ^ 63) ≤ x.toI64 ∧ x.toI64 < 2 ^ 63 := by
  cases x with
  | nan => exact ⟨le_refl _, by decide⟩
  | inf s => exact ⟨le_refl _, by show (-(2 ^ 63) : ℤ) < 2 ^ 63; decide⟩
  | fin q =>
    simp only [F64.toI64]
    split
    · assumption
    · exact ⟨le_refl _, by decide⟩

theorem toI64_own {n : ℤ} (h : -(2 ^ 63) ≤ n ∧ n < 2 ^ 63) : F64.toI64 (.fin (n : ℚ)) = n := by
  simp only [F64.toI64, truncQ_int, if_pos h]

/-- What the type of a column says about its values. -/
theorem columnType_values (prec : Nat) (cells : List (Option Val)) (hi : ∀ n, some (.i8 n) ∉ cells) :
    match columnType prec cells with
    | .utf8 => True
    | .i8 => ∀ v, some v ∈ cells → ∃ x, v = .f8 x ∧ f8IsI8 [x] prec = true
    | .f8 => (∀ v, some v ∈ cells → ∃ x, v = .f8 x) ∧ ∃ x, some (.f8 x) ∈ cells ∧ f8IsI8 [x] prec = false
    | .ts => (∀ v, some v ∈ cells → ∃ n, v = .ts n) ∧ ∃ n, some (.ts n) ∈ cells := by
  have no : ∀ (p : Option Val → Bool) v, cells.any p = false → some v ∈ cells → p (some v) = false := by
    intro p v h hv
    simpa using List.any_eq_false.mp h _ hv
  have yes : ∀ (p : Option Val → Bool), p none = false → cells.any p = true → ∃ v, some v ∈ cells ∧ p (some v) = true := by
    intro p hn h
    obtain ⟨v, hv, hp⟩ := List.any_eq_true.mp h
    cases v with
    | none => rw [hn] at hp; cases hp
    | some v => exact ⟨v, hv, hp⟩
  unfold columnType
  cases h1 : cells.any isTs <;> cases h2 : cells.any isNum <;> cases h3 : cells.any isText <;> simp only [Bool.toNat_true,
    Bool.toNat_false, Nat.reduceAdd, Nat.reduceLT, if_true, if_false, Bool.false_eq_true]
  · -- numbers
    have num : ∀ v, some v ∈ cells → ∃ x, v = .f8 x := by
      intro v hv
      cases v with
      | str s => have := no isText _ h3 hv; simp [isText] at this
      | f8 x => exact ⟨x, rfl⟩
      | i8 n => exact absurd hv (hi n)
      | ts n => have := no isTs _ h1 hv; simp [isTs] at this
    by_cases hall : cells.all (wholeNum prec) = true
    · rw [if_pos hall]
      intro v hv
      obtain ⟨x, rfl⟩ := num v hv
      exact ⟨x, rfl, List.all_eq_true.mp hall _ hv⟩
    · rw [if_neg hall]
      refine ⟨num, ?_⟩
      obtain ⟨v, hv, hw⟩ := List.all_eq_false.mp (Bool.not_eq_true _ ▸ hall)
      cases v with
      | none => exact absurd rfl hw
      | some v =>
        obtain ⟨x, rfl⟩ := num v hv
        exact ⟨x, hv, by simpa [wholeNum] using hw⟩
  · -- moments
    refine ⟨?_, ?_⟩
    · intro v hv
      cases v with
      | str s => have := no isText _ h3 hv; simp [isText] at this
      | f8 x => have := no isNum _ h2 hv; simp [isNum] at this
      | i8 n => exact absurd hv (hi n)
      | ts n => exact ⟨n, rfl⟩
    · obtain ⟨v, hv, hp⟩ := yes isTs rfl h1
      cases v with
      | str s => cases hp
      | f8 x => cases hp
      | i8 n => cases hp
      | ts n => exact ⟨n, hv⟩

/-- A column that was read is stored as what it is, and comes back as it is, whatever the conflict resolution. -/
theorem C124_column (env : Env) (prec : Nat) (hp : prec ≤ 22) (cells : List (Option Val)) (hi : ∀ n, some (.i8 n) ∉ cells)
    (o : ConcatOpts) (ho : o.prec = prec) :
    (materialise env prec cells).stored.array = materialise env prec cells ∧
    fetched env o (materialise env prec cells).stored.cells = materialise env prec cells := by
  have hval := columnType_values prec cells hi
  unfold fetched
  rw [resolved_same, ho]
  cases ht : columnType prec cells with
  | utf8 =>
    have e : (materialise env prec cells).stored = .texts (cells.map (Option.map (cellText env))) := by
      simp only [materialise, ht, Arr.stored, List.map_map]
      congr 1
      exact List.map_congr_left fun v _ => by cases v <;> rfl
    have ea : (materialise env prec cells).stored.array = materialise env prec cells := by
      rw [e]
      simp only [SColumn.array, materialise, ht, List.map_map]
      congr 1
      exact List.map_congr_left fun v _ => by cases v <;> rfl
    refine ⟨ea, ?_⟩
    have := fetched_texts env o (SColumn.texts (cells.map (Option.map (cellText env)))).cells (by
      intro v hv
      obtain ⟨x, _, e⟩ := List.mem_map.mp hv
      cases x with
      | none => cases e
      | some s => injection e with e; exact ⟨s, e.symm⟩)
    unfold fetched at this
    rw [resolved_same, ho, ← e] at this
    refine Eq.trans ?_ ea
    rw [this, e]
    rfl
  | i8 =>
    rw [ht] at hval
    have e : (materialise env prec cells).stored =
        .wholes (cells.map fun v => v.bind fun | .f8 x => some x.toI64 | _ => none) := by
      simp only [materialise, ht, Arr.stored, List.map_map]
      congr 1
      refine List.map_congr_left fun v hv => ?_
      cases v with
      | none => rfl
      | some v => obtain ⟨x, rfl, _⟩ := hval v hv; rfl
    have ea : (materialise env prec cells).stored.array = materialise env prec cells := by
      rw [e]
      simp only [SColumn.array, materialise, ht, List.map_map]
      congr 1
      refine List.map_congr_left fun v hv => ?_
      cases v with
      | none => rfl
      | some v => obtain ⟨x, rfl, _⟩ := hval v hv; rfl
    refine ⟨ea, ?_⟩
    have hex : ∃ v, some v ∈ cells := by
      by_contra hno
      push Not at hno
      have h2 : cells.any isNum = false := by
        rw [List.any_eq_false]
        intro v hv
        cases v with
        | none => simp [isNum]
        | some v => exact absurd hv (hno v)
      unfold columnType at ht
      simp only [h2] at ht
      revert ht
      cases cells.any isTs <;> cases cells.any isText <;> simp
    obtain ⟨v, hv⟩ := hex
    obtain ⟨x, rfl, _⟩ := hval v hv
    set l := cells.map fun v => v.bind fun | .f8 x => some x.toI64 | _ => none with hl
    have hmem : ∀ n, some n ∈ l → ∃ x, n = F64.toI64 x ∧ f8IsI8 [x] prec = true := by
      intro n hn
      obtain ⟨v, hv, e⟩ := List.mem_map.mp hn
      cases v with
      | none => cases e
      | some v =>
        obtain ⟨x, rfl, hx⟩ := hval v hv
        injection e with e
        exact ⟨x, e.symm, hx⟩
    have hne : ∃ n, some n ∈ l := ⟨x.toI64, List.mem_map.mpr ⟨_, hv, rfl⟩⟩
    have a1 := any_map (fun n : Int => Val.f8 (.fin (n : ℚ))) isTs l false rfl (fun _ => rfl) (by simp)
    have a2 := any_map (fun n : Int => Val.f8 (.fin (n : ℚ))) isNum l true rfl (fun _ => rfl) (fun _ => hne)
    have a3 := any_map (fun n : Int => Val.f8 (.fin (n : ℚ))) isText l false rfl (fun _ => rfl) (by simp)
    have a4 : (l.map (Option.map fun n : Int => Val.f8 (.fin (n : ℚ)))).all (wholeNum prec) = true := by
      rw [List.all_eq_true]
      intro v hv
      obtain ⟨n, hn, rfl⟩ := List.mem_map.mp hv
      cases n with
      | none => rfl
      | some n =>
        obtain ⟨x, rfl, hx⟩ := hmem n hn
        exact whole_again hp hx
    have ht2 : columnType prec (l.map (Option.map fun n : Int => Val.f8 (.fin (n : ℚ)))) = .i8 := by
      unfold columnType
      rw [a1, a2, a3, a4]
      rfl
    refine Eq.trans ?_ ea
    rw [e]
    simp only [SColumn.cells, SColumn.array]
    unfold materialise
    rw [ht2, render_map env .i8 _ .i8]
    intro n hn
    obtain ⟨x, rfl, _⟩ := hmem n hn
    simp only [rendered, toI64_own (toI64_range x)]
  | f8 =>
    rw [ht] at hval
    obtain ⟨hnum, _⟩ := hval
    have same : cells.map (Option.map (rendered env .f8)) = cells := by
      conv_rhs => rw [← List.map_id cells]
      refine List.map_congr_left fun v hv => ?_
      cases v with
      | none => rfl
      | some v => obtain ⟨x, rfl⟩ := hnum v hv; rfl
    have ec : (materialise env prec cells).stored.cells = cells := by
      simp only [materialise, ht, same, Arr.stored, SColumn.cells, List.map_map]
      conv_rhs => rw [← List.map_id cells]
      refine List.map_congr_left fun v hv => ?_
      cases v with
      | none => rfl
      | some v => obtain ⟨x, rfl⟩ := hnum v hv; rfl
    refine ⟨?_, by rw [ec]⟩
    simp only [materialise, ht, same, Arr.stored, SColumn.array, List.map_map]
    congr 1
    conv_rhs => rw [← List.map_id cells]
    refine List.map_congr_left fun v hv => ?_
    cases v with
    | none => rfl
    | some v => obtain ⟨x, rfl⟩ := hnum v hv; rfl
  | ts =>
    rw [ht] at hval
    obtain ⟨hnum, _⟩ := hval
    have same : cells.map (Option.map (rendered env .ts)) = cells := by
      conv_rhs => rw [← List.map_id cells]
      refine List.map_congr_left fun v hv => ?_
      cases v with
      | none => rfl
      | some v => obtain ⟨x, rfl⟩ := hnum v hv; rfl
    have ec : (materialise env prec cells).stored.cells = cells := by
      simp only [materialise, ht, same, Arr.stored, SColumn.cells, List.map_map]
      conv_rhs => rw [← List.map_id cells]
      refine List.map_congr_left fun v hv => ?_
      cases v with
      | none => rfl
      | some v => obtain ⟨x, rfl⟩ := hnum v hv; rfl
    refine ⟨?_, by rw [ec]⟩
    simp only [materialise, ht, same, Arr.stored, SColumn.array, List.map_map]
    congr 1
    conv_rhs => rw [← List.map_id cells]
    refine List.map_congr_left fun v hv => ?_
    cases v with
    | none => rfl
    | some v => obtain ⟨x, rfl⟩ := hnum v hv; rfl

theorem mem_picked {α : Type} {col : List (Option α)} {off len : Nat} {m : Option (List Bool)} {v : α}
    (h : some v ∈ pickRows col off len m) : some v ∈ col := by
  have key : ∀ i, cellAt col i = some v → some v ∈ col := by
    intro i hi
    unfold cellAt at hi
    cases hc : col[i]? with
    | none => rw [hc] at hi; cases hi
    | some w =>
      rw [hc] at hi
      exact List.mem_of_getElem? (hc.trans (congrArg some hi))
  cases m with
  | none =>
    obtain ⟨i, _, hi⟩ := List.mem_map.mp h
    exact key _ hi
  | some m =>
    obtain ⟨i, _, hi⟩ := List.mem_map.mp h
    exact key _ hi

theorem plain_column {g : VGrid} (h : g.Plain) (k : Int) (n : Int) : some (.i8 n) ∉ g.column k := by
  intro hm
  obtain ⟨r, _, hr⟩ := List.mem_map.mp hm
  unfold VGrid.at at hr
  obtain ⟨p, hp, e⟩ := Option.map_eq_some_iff.mp hr
  have hmem := List.mem_of_find?_eq_some hp
  rw [List.getD_eq_getElem?_getD] at hmem
  cases hg : g[r]? with
  | none => rw [hg] at hmem; cases hmem
  | some row =>
    rw [hg, Option.getD_some] at hmem
    exact h row (List.mem_of_getElem? hg) p hmem n e

theorem plain_resolved (env : Env) (o : ConcatOpts) {cells : List (Option Val)} (h : ∀ n, some (.i8 n) ∉ cells) :
    ∀ n, some (.i8 n) ∉ resolved env o cells := by
  intro n hm
  have img : ∀ f : Val → Val, (∀ v, v ≠ .i8 n → f v ≠ .i8 n) → some (.i8 n) ∉ cells.map (Option.map f) := by
    intro f hf hmem
    obtain ⟨v, hv, e⟩ := List.mem_map.mp hmem
    cases v with
    | none => cases e
    | some v =>
      injection e with e
      exact hf v (by rintro rfl; exact h n hv) e
  unfold resolved at hm
  split at hm
  · split at hm
    · refine img _ ?_ hm
      intro v hv
      cases v with
      | str s =>
        simp only [asMoment]
        split
        · simp
        · split <;> simp
      | f8 x => simp [asMoment]
      | i8 m => simpa [asMoment] using hv
      | ts m => simp [asMoment]
    · exact h n hm
  · split at hm
    · refine img _ ?_ hm
      intro v hv
      cases v with
      | str s => simp [asNumber]
      | f8 x => simp [asNumber]
      | i8 m => simpa [asNumber] using hv
      | ts m => simp [asNumber]
    · exact h n hm

theorem zip_names {α β : Type} (f : α → β) (names : List Str) (l : List α) (h : names.length = l.length) :
    (names.zip (l.map f)).map (·.1) = names ∧ ∀ {γ : Type} (F : β → γ), (names.zip (l.map f)).map (fun c => F c.2) = l.map (F ∘ f) := by
  constructor
  · exact List.map_fst_zip (by simp [h])
  · intro γ F
    have := List.map_snd_zip (l₁ := names) (l₂ := l.map f) (by simp [h])
    calc (names.zip (l.map f)).map (fun c => F c.2) = ((names.zip (l.map f)).map Prod.snd).map F := by rw [List.map_map]; rfl
      _ = _ := by rw [this, List.map_map]

/-- **C124** for the values of sheets.  Whatever was read from a sheet, with any arguments but `dtypes` and with any conflict
resolution: its arrays can be stored, and reading the sheet they are stored in, with `header=1` and the same
`float_precision`, gives the same names and arrays.  Nothing is asked of the values; there is a row, and no row and no name is
empty. -/
theorem C124_table {A D : Type} (env : Env) (lib : Lib A D) (hlib : lib.Lawful) (search : Str → Option (Str → Bool))
    (reMatch : Str → Str → Py Bool) (args : ReadArgs D) (hdt : args.dtypes = .none) (o : ConcatOpts) (hp : o.prec ≤ 22)
    (g : VGrid) (hg : g.Plain) (T : Table A) (h : g.table env lib search reMatch args o = .ok T) :
    ∃ arrays : List Arr, T.arrays = arrays.map (fun a => lib.ofFetched (.arr a)) ∧ T.names.length = arrays.length ∧
      (∀ a ∈ arrays, a.stored.array = a) ∧
      (∀ a ∈ arrays, ∀ o' : ConcatOpts, o'.prec = o.prec → fetched env o' a.stored.cells = a) ∧
      ∀ rows, (storedTable T.names arrays rows).Shape → ∀ o' : ConcatOpts, o'.prec = o.prec →
        (storedTable T.names arrays rows).grid.table env lib search reMatch { header := .rows 1 } o' = .ok T := by
  obtain ⟨r, names, fs, m, arrays, g1, g2, g3, g4, g5, rfl⟩ := sheetTable_inv h
  rw [hdt, applyDtypes] at g5
  injection g5 with g5
  set F : Int → Arr := fun k => fetched env o (pickRows (g.column k) (args.header.height + r + args.skipAfter).toNat
    ((g.maxSpan : Int) - r - args.header.height - args.skipAfter).toNat m) with hF
  have harr : arrays = (g.columns.map F).map (fun a => lib.ofFetched (.arr a)) := by rw [← g5, List.map_map]; rfl
  have hcol : ∀ a ∈ g.columns.map F, ∀ o' : ConcatOpts, o'.prec = o.prec →
      a.stored.array = a ∧ fetched env o' a.stored.cells = a := by
    intro a ha o' ho'
    obtain ⟨k, _, rfl⟩ := List.mem_map.mp ha
    exact C124_column env o.prec hp _ (plain_resolved env o fun n hn => plain_column hg k n (mem_picked hn)) o' ho'
  have hlen : names.length = (g.columns.map F).length := by rw [List.length_map]; exact namesFor_length g2
  refine ⟨g.columns.map F, harr, hlen, fun a ha => (hcol a ha o rfl).1, fun a ha o' ho' => (hcol a ha o' ho').2, ?_⟩
  intro rows hs o' ho'
  rw [stored_table env lib hlib search reMatch o' _ hs]
  · have hz := zip_names Arr.stored names (g.columns.map F) hlen
    simp only [storedTable]
    rw [hz.1, hz.2 fun c => lib.ofFetched (.arr c.array), harr]
    congr 2
    refine List.map_congr_left fun a ha => ?_
    simp only [Function.comp_apply, (hcol a ha o rfl).1]
  · intro c hc
    have := (List.of_mem_zip hc).2
    obtain ⟨a, ha, e⟩ := List.mem_map.mp this
    rw [← e, (hcol a ha o' ho').2, (hcol a ha o' ho').1]

/-- **C124** for files: the table is stored in a sheet of any workbook, saved as XLSX or as XLSB. -/
theorem C124_file {A D : Type} (env : Env) (he : env.pyFloat = pyFloatText) (hi : env.pyInt = pyIntText)
    (toInt : Str → Option Int) (hti : ∀ s n, pyIntText s = some n → toInt s = some (n : Int)) (lib : Lib A D)
    (hlib : lib.Lawful) (search : Str → Option (Str → Bool)) (reMatch : Str → Str → Py Bool)
    (pieces : Str → List Str) (hpc : Buffered pieces)
    (args : ReadArgs D) (hdt : args.dtypes = .none) (o : ConcatOpts) (hp : o.prec ≤ 22)
    (g : VGrid) (hg : g.Plain) (T : Table A) (h : g.table env lib search reMatch args o = .ok T)
    (sheet : SheetArg) (keep : Bool) (conflict : Str) (formats : FormatsArg) (nulls : NullArg)
    (hd : (concatOpts conflict formats o.prec).confDt = false)
    (isNull : Str → Bool) (hnull : ∀ s, isNull s = (decide (s ∈ errorTexts) || nulls.asks s)) :
    ∃ arrays : List Arr, T.arrays = arrays.map (fun a => lib.ofFetched (.arr a)) ∧
      ∀ n, (storedTable T.names arrays n).Shape →
      ∀ (b : DBook), b.Ok isNull → ∀ (name : Str) (rows : List (List DCell)), b.Selects sheet name rows →
        b.values rows = (storedTable T.names arrays n).grid →
      ∀ (zx zb : Archive), (∀ e ∈ b.xlsx.entries, e ∈ zx) → (zx.map (·.1)).Nodup → (∀ e ∈ b.xlsb.entries, e ∈ zb) →
        (zb.map (·.1)).Nodup → workbookXml ∉ zb.map (·.1) →
      ∀ z ∈ [zx, zb], readArchive env lib search reMatch toInt pieces
        { iter := { sheet := sheet, keepEmpty := keep }, table := { header := .rows 1 },
          precision := o.prec, formats := formats, conflict := conflict, nulls := nulls } z = .ok T := by
  obtain ⟨arrays, h1, h2, h3, h4, h5⟩ := C124_table env lib hlib search reMatch args hdt o hp g hg T h
  refine ⟨arrays, h1, ?_⟩
  intro n hs b hb name rows hsel hv zx zb hzx hnx hzb hnb hx z hz
  have hcol : ∀ c ∈ (storedTable T.names arrays n).columns,
      fetched env (concatOpts conflict formats o.prec) c.2.cells = c.2.array := by
    intro c hc
    obtain ⟨a, ha, e⟩ := List.mem_map.mp (List.of_mem_zip hc).2
    rw [← e, h4 a ha (concatOpts conflict formats o.prec) rfl, h3 a ha]
  have hr := stored_read env he hi toInt hti lib hlib search reMatch pieces hpc sheet keep o.prec conflict formats nulls isNull
    hnull _ rfl b hb name rows hsel _ hs hcol (.inl hd) hv zx zb hzx hnx hzb hnb hx z hz
  have ht := h5 n hs (concatOpts conflict formats o.prec) rfl
  rw [stored_table env lib hlib search reMatch _ _ hs hcol] at ht
  rw [hr, ht]

/-! ## Examples -/

/-- A sheet with numbers that are nearly whole, a mixture, and days. -/
def exAgain : VGrid :=
  [[(0, .f8 (.fin (3 + 1 / 2 ^ 30))), (2, .str ['a']), (3, .ts 1000)], [(0, .f8 (.fin 4)), (2, .f8 (.fin 5)), (5, .f8 (.fin (1 / 2)))]]

/-- What is read is not what is in the sheet. -/
example : (exAgain.table textEnv exLib (fun _ => none) (fun _ _ => .ok false) {} ⟨false, false, [], 6⟩).map
      (fun t => t.arrays) = .ok [.arr ⟨.i8, [some (.i8 3), some (.i8 4)]⟩,
        .arr ⟨.utf8, [some (.str ['a']), some (.str (cellText textEnv (.f8 (.fin 5))))]⟩,
        .arr ⟨.ts, [some (.ts 1000), none]⟩, .arr ⟨.f8, [none, some (.f8 (.fin (1 / 2)))]⟩] := by decide +kernel

/-- Reading it again changes nothing. -/
example : (exAgain.table textEnv exLib (fun _ => none) (fun _ _ => .ok false) {} ⟨false, false, [], 6⟩).bind (fun t =>
      (storedTable t.names (t.arrays.map fun | .arr a => a | _ => ⟨.utf8, []⟩) 2).grid.table textEnv exLib (fun _ => none)
        (fun _ _ => .ok false) { header := .rows 1 } ⟨false, false, [], 6⟩) =
    exAgain.table textEnv exLib (fun _ => none) (fun _ _ => .ok false) {} ⟨false, false, [], 6⟩ := by decide +kernel

example : exAgain.Plain := by
  unfold VGrid.Plain exAgain
  intro row hr p hp n
  simp only [List.mem_cons, List.not_mem_nil, or_false] at hr
  rcases hr with rfl | rfl <;> simp only [List.mem_cons, List.not_mem_nil, or_false] at hp <;>
    rcases hp with rfl | rfl | rfl <;> simp

/-- Why no row may be empty: it is skipped when the file is read again, if it was saved as XLSB. -/
def exAgainGap : DBook where
  sheets := [(['S'], [[⟨0, 0, .shared 0⟩], [⟨0, 0, .shared 1⟩], [], [⟨0, 0, .shared 1⟩]])]
  shared := [['n'], ['a']]
  formats := [0]

theorem C124_rows_finding :
    exAgainGap.values (exAgainGap.sheets.getD 0 ([], [])).2 =
      (storedTable [['n']] [⟨.utf8, [some (.str ['a']), none, some (.str ['a'])]⟩] 3).grid ∧
    (readArchive textEnv exLib (fun _ => none) (fun _ _ => .ok false) exInt (fun s => [s])
        { table := { header := .rows 1 } } exAgainGap.xlsx.entries).map (fun t => t.arrays) =
      .ok [.arr ⟨.utf8, [some (.str ['a']), none, some (.str ['a'])]⟩] ∧
    (readArchive textEnv exLib (fun _ => none) (fun _ _ => .ok false) exInt (fun s => [s])
        { table := { header := .rows 1 } } exAgainGap.xlsb.entries).map (fun t => t.arrays) =
      .ok [.arr ⟨.utf8, [some (.str ['a']), some (.str ['a'])]⟩] := by decide +kernel

end Rxls
