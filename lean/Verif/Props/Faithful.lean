import Verif.Props.Parts
import Verif.Spec.Faithful

/-! # Property C126: the values of a table are those of the sheet -/

namespace Rxls

/-- One cell in a column. -/
theorem shown_cell (env : Env) (prec : Nat) (hp : prec ≤ 15) (cells : List (Option Val)) (hi : ∀ n, some (.i8 n) ∉ cells)
    (hr : ∀ x, some (.f8 x) ∈ cells → x = .nan ∨ ∃ q : ℚ, x = .fin q ∧ |q| < 2 ^ 63) (v : Option Val) (hv : v ∈ cells) :
    CellShown env prec v (v.map (rendered env (columnType prec cells))) := by
  have ht := columnType_values prec cells hi
  cases v with
  | none => trivial
  | some v =>
    cases hc : columnType prec cells with
    | utf8 =>
      cases v with
      | i8 n => exact absurd hv (hi n)
      | str s => rfl
      | ts n => rfl
      | f8 x => rfl
    | i8 =>
      rw [hc] at ht
      obtain ⟨x, rfl, hx⟩ := ht v hv
      show NumberShown env prec x (.i8 x.toI64)
      rcases hr x hv with rfl | ⟨q, rfl, hq⟩
      · simp [C22_nan_rejected] at hx
      · exact ⟨q, rfl, (C22_int_detection hp hx (by simp) hq).2⟩
    | f8 =>
      rw [hc] at ht
      obtain ⟨x, rfl⟩ := ht.1 v hv
      rfl
    | ts =>
      rw [hc] at ht
      obtain ⟨n, rfl⟩ := ht.1 v hv
      rfl

/-- **C126** for a column: each cell is shown. -/
theorem C126_column (env : Env) (o : ConcatOpts) (hp : o.prec ≤ 15) (hd : o.confDt = false) (hn : o.confNum = false)
    (cells : List (Option Val)) (hi : ∀ n, some (.i8 n) ∉ cells)
    (hr : ∀ x, some (.f8 x) ∈ cells → x = .nan ∨ ∃ q : ℚ, x = .fin q ∧ |q| < 2 ^ 63) (i : Nat) (v w : Option Val)
    (hv : cells[i]? = some v) (hw : (fetched env o cells).vals[i]? = some w) : CellShown env o.prec v w := by
  have e : resolved env o cells = cells := by
    unfold resolved
    simp [hd, hn]
  unfold fetched materialise at hw
  rw [e, List.getElem?_map, hv, Option.map_some, Option.some_inj] at hw
  subst hw
  exact shown_cell env o.prec hp cells hi hr v (List.mem_of_getElem? hv)

theorem column_all (g : VGrid) (k : Int) (r : Nat) : cellAt (g.column k) r = g.at k r := by
  by_cases h : r < g.length
  · exact column_cell g k r h
  · unfold cellAt VGrid.at VGrid.column
    rw [List.getD_eq_getElem?_getD, List.getElem?_eq_none (by simpa using h), List.getElem?_eq_none (by simpa using h)]
    rfl

/-- The rows a window, or a window and a mask, picks. -/
theorem picked_rows (off len : Nat) (m : Option (List Bool)) : ∃ rows : List Nat, rows.Pairwise (· < ·) ∧
    ∀ col : List (Option Val), pickRows col off len m = rows.map (cellAt col) := by
  have inc : ∀ l : List Nat, l.Pairwise (· < ·) → (l.map (off + ·)).Pairwise (· < ·) := by
    intro l hl
    rw [List.pairwise_map]
    exact hl.imp (by intro a b h; omega)
  cases m with
  | none => exact ⟨(List.range len).map (off + ·), inc _ List.pairwise_lt_range, fun col => by rw [List.map_map]; rfl⟩
  | some m =>
    exact ⟨((List.range m.length).filter (fun i => m[i]? = some true)).map (off + ·),
      inc _ (List.pairwise_lt_range.filter _), fun col => by rw [List.map_map]; rfl⟩

theorem range_column {g : VGrid} (h : g.InRange) (k : Int) (x : F64) (hx : some (.f8 x) ∈ g.column k) :
    x = .nan ∨ ∃ q : ℚ, x = .fin q ∧ |q| < 2 ^ 63 := by
  obtain ⟨r, _, hr⟩ := List.mem_map.mp hx
  unfold VGrid.at at hr
  obtain ⟨p, hp, e⟩ := Option.map_eq_some_iff.mp hr
  have hmem := List.mem_of_find?_eq_some hp
  rw [List.getD_eq_getElem?_getD] at hmem
  cases hg : g[r]? with
  | none => rw [hg] at hmem; cases hmem
  | some row =>
    rw [hg, Option.getD_some] at hmem
    exact h row (List.mem_of_getElem? hg) p hmem x e

/-- **C126** for the values of sheets: any header, lookup, filters and strategy. -/
theorem C126_table {A D : Type} (env : Env) (lib : Lib A D) (search : Str → Option (Str → Bool))
    (reMatch : Str → Str → Py Bool) (args : ReadArgs D) (hdt : args.dtypes = .none) (o : ConcatOpts) (hp : o.prec ≤ 15)
    (hd : o.confDt = false) (hn : o.confNum = false) (g : VGrid) (hg : g.Plain) (hr : g.InRange) (t : Table A)
    (h : g.table env lib search reMatch args o = .ok t) : g.Shows env lib o.prec t := by
  obtain ⟨r, names, fs, m, arrays, g1, g2, g3, g4, g5, rfl⟩ := sheetTable_inv h
  rw [hdt, applyDtypes] at g5
  injection g5 with g5
  obtain ⟨rows, hinc, hpick⟩ := picked_rows (args.header.height + r + args.skipAfter).toNat
    ((g.maxSpan : Int) - r - args.header.height - args.skipAfter).toNat m
  refine ⟨rows, g.columns.map fun k => fetched env o (rows.map (cellAt (g.column k))), hinc, ?_, by simp, ?_⟩
  · rw [← g5, List.map_map]
    refine List.map_congr_left fun k _ => ?_
    simp only [hpick, Function.comp_apply]
  intro j k a hk ha
  rw [List.getElem?_map, hk, Option.map_some, Option.some_inj] at ha
  subst ha
  refine ⟨by simp [fetched, materialise, resolved_length], ?_⟩
  intro i s v hs hv
  have hmem : ∀ w, some w ∈ rows.map (cellAt (g.column k)) → some w ∈ g.column k := by
    intro w hw
    rw [← hpick] at hw
    exact mem_picked hw
  have := C126_column env o hp hd hn _ (fun n hm => plain_column hg k n (hmem _ hm))
    (fun x hx => range_column hr k x (hmem _ hx)) i (cellAt (g.column k) s) v (by rw [List.getElem?_map, hs]; rfl) hv
  rwa [column_all] at this

theorem plain_shown {g : VGrid} (h : g.Plain) (k t : Nat) (keep : Bool) (cols : List Int) :
    (g.shownXlsx k t keep cols).Plain ∧ (g.shownXlsb k t keep cols).Plain := by
  have hw := plain_without h cols
  constructor
  · intro row hr
    refine hw row ?_
    unfold VGrid.shownXlsx xlsxRows at hr
    dsimp only at hr
    split at hr
    · split at hr
      · exact List.mem_of_mem_drop hr
      · exact List.mem_of_mem_drop (List.mem_of_mem_take hr)
    · split at hr
      · split at hr
        · exact (List.dropWhile_sublist _).mem hr
        · exact (List.dropWhile_sublist _).mem (List.mem_of_mem_take hr)
      · cases hr
  · intro row hr
    refine hw row ?_
    unfold VGrid.shownXlsb xlsbRows at hr
    dsimp only at hr
    split at hr
    · split at hr
      · exact hr
      · exact List.mem_of_mem_drop (List.mem_of_mem_take hr)
    · split at hr
      · split at hr
        · exact (List.mem_filter.mp hr).1
        · exact (List.mem_filter.mp (List.mem_of_mem_take hr)).1
      · cases hr

/-- **C126**, XLSX: whatever is read without `dtypes` and conflict resolution shows the rows of the sheet. -/
theorem C126_xlsx {A D : Type} (env : Env) (lib : Lib A D) (search : Str → Option (Str → Bool))
    (reMatch : Str → Str → Py Bool) (toInt : Str → Option Int) (a : FileArgs D) (k t : Nat)
    (hk : a.iter.skipRows = k) (ht : a.iter.takeRows = t) (ha : a.table.Sensible) (hdt : a.table.dtypes = .none) (p : Package)
    (hp : workbookXml ∈ p.names) (isNull : Str → Bool) (hnull : ∀ s, isNull s = (decide (s ∈ errorTexts) || a.nulls.asks s))
    (o : ConcatOpts) (ho : o = concatOpts a.conflict a.formats a.precision) (hprec : o.prec ≤ 15) (hd : o.confDt = false)
    (hn : o.confNum = false) (formats : List StyleClass) (shared : List Str) (g : TGrid)
    (h : p.xlsx.Holds env toInt a.iter.sheet isNull formats shared g) (V : VGrid)
    (hV : V = (g.values env isNull formats shared).shownXlsx k t a.iter.keepEmpty a.iter.skipCols) (hr : V.InRange)
    (hdata : V.flatten ≠ [] → V.HasData env search a.table o) (tab : Table A)
    (hread : readFile env lib search reMatch toInt a p = .ok tab) : V.Shows env lib o.prec tab := by
  rw [C69_xlsx env lib search reMatch toInt a k t hk ht ha p hp isNull hnull o ho formats shared g h V hV
    (fun k => Resolvable.off env hd hn _ _) hdata] at hread
  split at hread
  · cases hread
  · exact C126_table env lib search reMatch a.table hdt o hprec hd hn V
      (by rw [hV]; exact (plain_shown (plain_xlsx _ _ _ _ _) _ _ _ _).1) hr tab hread

/-- **C126**, XLSB: the same. -/
theorem C126_xlsb {A D : Type} (env : Env) (lib : Lib A D) (search : Str → Option (Str → Bool))
    (reMatch : Str → Str → Py Bool) (toInt : Str → Option Int) (a : FileArgs D) (k t : Nat)
    (hk : a.iter.skipRows = k) (ht : a.iter.takeRows = t) (ha : a.table.Sensible) (hdt : a.table.dtypes = .none) (p : Package)
    (hp : workbookXml ∉ p.names) (hp' : workbookBin ∈ p.names)
    (o : ConcatOpts) (ho : o = concatOpts a.conflict a.formats a.precision) (hprec : o.prec ≤ 15) (hd : o.confDt = false)
    (hn : o.confNum = false) (temporal : List Bytes) (shared : List Str) (g : Grid)
    (h : p.xlsb.Holds a.iter.sheet a.nulls.asks temporal shared g) (V : VGrid)
    (hV : V = (g.values temporal shared a.nulls.asks).shownXlsb k t a.iter.keepEmpty a.iter.skipCols) (hr : V.InRange)
    (hdata : V.flatten ≠ [] → V.HasData env search a.table o) (tab : Table A)
    (hread : readFile env lib search reMatch toInt a p = .ok tab) : V.Shows env lib o.prec tab := by
  rw [C69_xlsb env lib search reMatch toInt a k t hk ht ha p hp hp' o ho temporal shared g h V hV
    (fun k => Resolvable.off env hd hn _ _) hdata] at hread
  split at hread
  · cases hread
  · exact C126_table env lib search reMatch a.table hdt o hprec hd hn V
      (by rw [hV]; exact (plain_shown (plain_xlsb _ _ _ _) _ _ _ _).2) hr tab hread

theorem rnd_few {m : ℤ} (k : Nat) (hk : k ≤ 950) (h : |m| ≤ 2 ^ 53) : rnd ((m : ℚ) * 2 ^ k) = .fin ((m : ℚ) * 2 ^ k) := by
  obtain ⟨a, e, ha, he, hq⟩ := isFloat_int h
  apply rnd_isF64
  refine ⟨⟨a, e + k, ha, by omega, ?_⟩, ?_⟩
  · rw [hq, two_zpow_add, zpow_natCast, mul_assoc]
  · rw [abs_mul, abs_of_pos (by positivity : (0 : ℚ) < 2 ^ k)]
    have h1 : |(m : ℚ)| ≤ 2 ^ 53 := by exact_mod_cast h
    have h2 : (2 : ℚ) ^ k ≤ 2 ^ 950 := pow_le_pow_right₀ (by norm_num) hk
    calc |(m : ℚ)| * 2 ^ k ≤ 2 ^ 53 * 2 ^ 950 := mul_le_mul h1 h2 (by positivity) (by positivity)
      _ = 2 ^ 1003 := by rw [← pow_add]
      _ < 2 ^ 1024 := pow_lt_pow_right₀ (by norm_num) (by norm_num)

/-- Numbers with few significant bits count as whole numbers, however large they are. -/
theorem large_whole (p : Nat) (hp : p ≤ 22) (n : ℤ) (k : Nat) (h : |n| * 5 ^ p ≤ 2 ^ 53) (hk : k ≤ 900) :
    f8IsI8 [.fin ((n * 2 ^ k : ℤ) : ℚ)] p = true := by
  have h0 : (10 : ℚ) ^ p ≠ 0 := by positivity
  have e : ((n * 2 ^ k : ℤ) : ℚ) * 10 ^ p = ((n * 5 ^ p : ℤ) : ℚ) * 2 ^ (k + p) := by
    push_cast
    rw [show (10 : ℚ) = 5 * 2 by norm_num, mul_pow, pow_add]
    ring
  have h1 : rnd (((n * 2 ^ k : ℤ) : ℚ) * 10 ^ p) = .fin ((n * 2 ^ k * 10 ^ p : ℤ) : ℚ) := by
    rw [e, rnd_few (k + p) (by omega) (by rw [abs_mul, abs_of_pos (by positivity : (0 : ℤ) < 5 ^ p)]; exact h), ← e]
    push_cast
    rfl
  rw [whole_one, npRound_steps _ p h1]
  rw [show ((n * 2 ^ k * 10 ^ p : ℤ) : ℚ) = ((n : ℚ) * 2 ^ k) * 10 ^ p by push_cast; ring, mul_div_cancel_right₀ _ h0,
    rnd_few k (by omega) ((le_times n p).trans h)]
  simp [F64.beq]

/-- Finding, C126: a number from 2^63 on, or below -2^63, with few significant bits is -2^63 in the table, if the other numbers
of its column count as whole; for instance every power of two up to 2^900. -/
theorem C126_large_finding (env : Env) (o : ConcatOpts) (hp : o.prec ≤ 22) (hd : o.confDt = false) (hn : o.confNum = false)
    (n : ℤ) (k : Nat) (h : |n| * 5 ^ o.prec ≤ 2 ^ 53) (hk : k ≤ 900) (hl : 2 ^ 63 ≤ n * 2 ^ k ∨ n * 2 ^ k < -2 ^ 63) :
    fetched env o [some (.f8 (.fin ((n * 2 ^ k : ℤ) : ℚ)))] = ⟨.i8, [some (.i8 (-2 ^ 63))]⟩ := by
  have hw := large_whole o.prec hp n k h hk
  have ht : F64.toI64 (.fin ((n * 2 ^ k : ℤ) : ℚ)) = -2 ^ 63 := by
    simp only [F64.toI64, truncQ_int]
    rw [if_neg (by omega)]
  have e : ∀ l, resolved env o l = l := by
    intro l
    unfold resolved
    simp [hd, hn]
  generalize F64.fin ((n * 2 ^ k : ℤ) : ℚ) = x at hw ht ⊢
  have hc : columnType o.prec [some (.f8 x)] = .i8 := by
    unfold columnType
    simp [isTs, isNum, isText, wholeNum, hw]
  unfold fetched materialise
  rw [e, hc]
  simp only [List.map_cons, List.map_nil, Option.map_some, rendered, ht]

/-! ## Examples -/

/-- The number 2^64 (1.8446744073709552E+19, as Excel writes it) below 3, in the number format `0`. -/
def exHuge : DBook where
  sheets := [(['S'], [[⟨0, 0, .number 0x4008000000000000 ⟨none, [3], false, [], none⟩⟩],
    [⟨0, 0, .number 0x43F0000000000000
      ⟨none, [1], true, [8, 4, 4, 6, 7, 4, 4, 0, 7, 3, 7, 0, 9, 5, 5, 2], some (true, some false, [1, 9])⟩⟩]])]
  shared := []
  formats := [1]

/-- Finding, C126, for whole files of both formats. -/
theorem C126_file_finding : ∀ z ∈ [exHuge.xlsx.entries, exHuge.xlsb.entries],
    exReadTwo z = .ok [.arr ⟨.i8, [some (.i8 3), some (.i8 (-9223372036854775808))]⟩] := by decide +kernel

/-- A table that shows its sheet: numbers, a text between numbers, a day, and nothing. -/
example : (exAgain.table textEnv exLib (fun _ => none) (fun _ _ => .ok false) {} ⟨false, false, [], 6⟩).map (·.arrays) =
      .ok [.arr ⟨.i8, [some (.i8 3), some (.i8 4)]⟩,
        .arr ⟨.utf8, [some (.str ['a']), some (.str (cellText textEnv (.f8 (.fin 5))))]⟩,
        .arr ⟨.ts, [some (.ts 1000), none]⟩, .arr ⟨.f8, [none, some (.f8 (.fin (1 / 2)))]⟩] ∧ exAgain.columns = [0, 2, 3, 5] := by
  decide +kernel

example : ¬CellShown textEnv 6 (some (.f8 (.fin (2 ^ 64)))) (some (.i8 (-2 ^ 63))) := by
  rintro ⟨q, e, h⟩
  injection e with e
  subst e
  norm_num [abs_of_pos, abs_of_neg] at h

end Rxls
