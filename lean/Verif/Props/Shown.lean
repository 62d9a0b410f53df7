import Verif.Props.Held
import Verif.Props.Read
import Verif.Spec.DemoEnv

/-! # Properties C29 and C31, exactly: nulls and texts of the columns that `read` returns -/

namespace Rxls

/-- The texts of run `j`, and its cells without a text, are rewritten: as moments, if the column has moments; as numbers,
if it has numbers. -/
def rewritten (env : Env) (o : ConcatOpts) (rows : List (Option (Nat × Option Val))) (j : Nat) : Bool :=
  if (heldCells rows).any isTs then
    o.confDt && (heldMoments env o (runHeld rows j) || (o.confNum && numericTexts env (runHeld rows j)))
  else o.confNum && (heldCells rows).any isNum && numericTexts env (heldUpTo rows j)

/-- What a text of run `j` is rewritten as. -/
def rewrittenText (env : Env) (o : ConcatOpts) (rows : List (Option (Nat × Option Val))) (j : Nat) (s : Str) : Str :=
  if (heldCells rows).any isTs then
    if heldMoments env o (runHeld rows j) then env.renderTs ((textMoment env o s).getD 0)
    else env.renderTs (f8ToMsWin ((env.parseF8 s).getD (.fin 0)))
  else env.renderF8 ((env.parseF8 s).getD (.fin 0))

/-- The columns of a table without filters and types. -/
theorem read_held_arrays {A D : Type} (env : Env) (b : Bool) (shared : List (Option Str)) (o : ConcatOpts)
    (lib : Lib A D) (search : Str → Option (Str → Bool)) (reMatch : Str → Str → Py Bool)
    (args : ReadArgs D) (cells : List Cell) (hne : cells ≠ [])
    (hv : ValidCells env b shared cells) (ha : args.Sensible) (hdt : args.dtypes = .none) (hfl : args.filters = .none)
    (row : Nat)
    (hrow : lookupRowV env (heldView env o b shared cells) (firstSeen cells) args.lookupSize.toNat search args.lookup =
      .ok (some row))
    (hlen : args.header.height + row + args.skipAfter < maxSpan cells) (t : Table A)
    (h : readCells env lib search reMatch args (freshSeries shared b o) cells = .ok t) :
    t.arrays = (columnsOf cells).map fun k => lib.ofFetched (.arr (fetchedHeld env o
      (window (heldRows env b shared (rawColumn (colCells cells k))) (args.header.height + row + args.skipAfter).toNat
        (maxSpan cells - row - args.header.height - args.skipAfter).toNat))) := by
  rw [C68_history env b shared o lib search reMatch args cells hne hv ha (by
    intro r hr
    rw [hrow] at hr
    injection hr with hr
    injection hr with hr
    subst hr
    omega)] at h
  split at h
  · simp at h
  obtain ⟨r, names, fs, m, arrays, g1, g2, g3, g4, g5, rfl⟩ := sheetTableV_inv h
  rw [hrow] at g1
  injection g1 with g1
  injection g1 with g1
  subst g1
  rw [hfl, filterKeys] at g3
  injection g3 with g3
  subst g3
  rw [maskForV, if_pos (by rfl)] at g4
  injection g4 with g4
  subst g4
  rw [hdt, applyDtypes] at g5
  injection g5 with g5
  subst g5
  rfl

theorem fetchedHeld_nulls (env : Env) (o : ConcatOpts) (rows : List (Option (Nat × Option Val))) :
    (fetchedHeld env o rows).vals.map Option.isNone = rows.map fun r => match r with
      | none => true
      | some (_, some _) => false
      | some (j, none) => !rewritten env o rows j := by
  have h : (fetchedHeld env o rows).vals.map Option.isNone = (resolvedHeld env o rows).map fun c => c.join.isNone := by
    simp only [fetchedHeld, List.map_map]
    refine List.map_congr_left fun c _ => ?_
    cases c with
    | none => rfl
    | some c => cases c <;> rfl
  rw [h]
  unfold resolvedHeld
  by_cases ht : (heldCells rows).any isTs = true
  · rw [if_pos ht]
    cases hd : o.confDt with
    | false =>
      rw [if_neg (by simp), List.map_map]
      refine List.map_congr_left fun r _ => ?_
      cases r with
      | none => rfl
      | some r => obtain ⟨j, v⟩ := r; cases v <;> simp [rewritten, ht, hd]
    | true =>
      rw [if_pos rfl, List.map_map]
      refine List.map_congr_left fun r _ => ?_
      cases r with
      | none => rfl
      | some r =>
        obtain ⟨j, v⟩ := r
        cases v with
        | none =>
          simp only [Function.comp, Option.map_some, Option.join_some, heldMoment, rewritten, ht, hd, if_true, Bool.true_and]
          by_cases h1 : heldMoments env o (runHeld rows j) = true
          · simp [h1]
          · by_cases h2 : (o.confNum && numericTexts env (runHeld rows j)) = true
            · simp [h1, h2]
            · simp [h1, h2]
        | some v =>
          cases v with
          | str s =>
            simp only [Function.comp, Option.map_some, Option.join_some, heldMoment]
            split
            · rfl
            · split <;> rfl
          | f8 x => rfl
          | i8 n => rfl
          | ts n => rfl
  · rw [if_neg ht]
    by_cases hn : (o.confNum && (heldCells rows).any isNum) = true
    · rw [if_pos hn, List.map_map]
      refine List.map_congr_left fun r _ => ?_
      cases r with
      | none => rfl
      | some r =>
        obtain ⟨j, v⟩ := r
        simp only [Function.comp, Option.map_some, Option.join_some, rewritten, ht, hn]
        cases v <;> by_cases hq : numericTexts env (heldUpTo rows j) = true <;> simp [hq]
    · rw [if_neg hn, List.map_map]
      refine List.map_congr_left fun r _ => ?_
      cases r with
      | none => rfl
      | some r =>
        obtain ⟨j, v⟩ := r
        simp only [Bool.not_eq_true] at hn ht
        cases v <;> simp [rewritten, ht, hn]

theorem shown_row {env : Env} {o : ConcatOpts} {rows : List (Option (Nat × Option Val))} {i j : Nat} {v : Val}
    (hi : rows[i]? = some (some (j, some v))) (hd : (fetchedHeld env o rows).dtype = .utf8) :
    ∃ w, (fetchedHeld env o rows).vals[i]? = some (some (.str (cellText env w))) ∧
      (resolvedHeld env o rows)[i]? = some (some (some w)) := by
  have h : ∃ w, (resolvedHeld env o rows)[i]? = some (some (some w)) := by
    unfold resolvedHeld
    split
    · split
      · cases v with
        | str s =>
          simp only [List.getElem?_map, hi, Option.map_some, heldMoment]
          split
          · exact ⟨_, rfl⟩
          · split <;> exact ⟨_, rfl⟩
        | f8 x => exact ⟨_, by simp only [List.getElem?_map, hi, Option.map_some, heldMoment]; rfl⟩
        | i8 n => exact ⟨_, by simp only [List.getElem?_map, hi, Option.map_some, heldMoment]; rfl⟩
        | ts n => exact ⟨_, by simp only [List.getElem?_map, hi, Option.map_some, heldMoment]; rfl⟩
      · exact ⟨_, by simp only [List.getElem?_map, hi, Option.map_some]; rfl⟩
    · split
      · simp only [List.getElem?_map, hi, Option.map_some]
        split <;> exact ⟨_, rfl⟩
      · exact ⟨_, by simp only [List.getElem?_map, hi, Option.map_some]; rfl⟩
  obtain ⟨w, hw⟩ := h
  refine ⟨w, ?_, hw⟩
  have hd' : heldType o.prec (resolvedHeld env o rows) = .utf8 := hd
  simp only [fetchedHeld, List.getElem?_map, hw, Option.map_some, Option.join_some, hd', rendered]

/-- A text of a text column. -/
theorem shown_text {env : Env} {o : ConcatOpts} {rows : List (Option (Nat × Option Val))} {i j : Nat} {s : Str}
    (hi : rows[i]? = some (some (j, some (.str s)))) (hd : (fetchedHeld env o rows).dtype = .utf8) :
    (fetchedHeld env o rows).vals[i]? =
      some (some (.str (if rewritten env o rows j then rewrittenText env o rows j s else s))) := by
  obtain ⟨w, h1, h2⟩ := shown_row hi hd
  rw [h1]
  congr 3
  unfold resolvedHeld at h2
  by_cases ht : (heldCells rows).any isTs = true
  · rw [if_pos ht] at h2
    simp only [rewritten, rewrittenText, ht, if_true]
    cases hc : o.confDt with
    | false =>
      rw [hc, if_neg (by simp), List.getElem?_map, hi] at h2
      simp only [Option.map_some, Option.some.injEq] at h2
      subst h2
      simp [cellText]
    | true =>
      rw [hc, if_pos rfl, List.getElem?_map, hi] at h2
      simp only [Option.map_some, Option.some.injEq, heldMoment] at h2
      by_cases q1 : heldMoments env o (runHeld rows j) = true
      · rw [if_pos q1] at h2
        injection h2 with h2
        subst h2
        simp [q1, cellText]
      · by_cases q2 : (o.confNum && numericTexts env (runHeld rows j)) = true
        · rw [if_neg q1, if_pos q2] at h2
          injection h2 with h2
          subst h2
          simp [q1, q2, cellText]
        · rw [if_neg q1, if_neg q2] at h2
          injection h2 with h2
          subst h2
          simp [q1, q2, cellText]
  · rw [if_neg ht] at h2
    simp only [rewritten, rewrittenText, ht, Bool.false_eq_true, if_false]
    by_cases hn : (o.confNum && (heldCells rows).any isNum) = true
    · rw [if_pos hn, List.getElem?_map, hi] at h2
      simp only [Option.map_some, Option.some.injEq] at h2
      by_cases q : numericTexts env (heldUpTo rows j) = true
      · rw [if_pos q] at h2
        injection h2 with h2
        subst h2
        simp [hn, q, cellText, heldNumber, asNumber]
      · rw [if_neg q] at h2
        injection h2 with h2
        subst h2
        simp [q, cellText]
    · rw [if_neg hn, List.getElem?_map, hi] at h2
      simp only [Option.map_some, Option.some.injEq] at h2
      subst h2
      simp [hn, cellText]

/-- A number of a text column. -/
theorem shown_number {env : Env} {o : ConcatOpts} {rows : List (Option (Nat × Option Val))} {i j : Nat} {x : F64}
    (hi : rows[i]? = some (some (j, some (.f8 x)))) (hd : (fetchedHeld env o rows).dtype = .utf8) :
    (fetchedHeld env o rows).vals[i]? = some (some (.str (if o.confDt && (heldCells rows).any isTs then
      env.renderTs (f8ToMsWin x) else env.renderF8 x))) := by
  obtain ⟨w, h1, h2⟩ := shown_row hi hd
  rw [h1]
  congr 3
  unfold resolvedHeld at h2
  by_cases ht : (heldCells rows).any isTs = true
  · rw [if_pos ht] at h2
    cases hc : o.confDt with
    | false =>
      rw [hc, if_neg (by simp), List.getElem?_map, hi] at h2
      simp only [Option.map_some, Option.some.injEq] at h2
      subst h2
      simp [cellText]
    | true =>
      rw [hc, if_pos rfl, List.getElem?_map, hi] at h2
      simp only [Option.map_some, Option.some.injEq, heldMoment] at h2
      subst h2
      simp [ht, cellText]
  · rw [if_neg ht] at h2
    have ht' : (heldCells rows).any isTs = false := by simpa using ht
    rw [ht', Bool.and_false, if_neg (by simp)]
    split at h2
    · rw [List.getElem?_map, hi] at h2
      simp only [Option.map_some, Option.some.injEq] at h2
      split at h2
      · simp only [heldNumber, asNumber, Option.some.injEq] at h2
        subst h2; rfl
      · injection h2 with h2
        subst h2; rfl
    · rw [List.getElem?_map, hi] at h2
      simp only [Option.map_some, Option.some.injEq] at h2
      subst h2; rfl

/-- C29, exactly: element `i` of column `j` of the table is null exactly if the sheet has no cell there, or a cell without a
text whose run is not rewritten. -/
theorem C29_exact {A D : Type} (env : Env) (b : Bool) (shared : List (Option Str)) (o : ConcatOpts)
    (lib : Lib A D) (search : Str → Option (Str → Bool)) (reMatch : Str → Str → Py Bool)
    (args : ReadArgs D) (cells : List Cell) (hne : cells ≠ [])
    (hv : ValidCells env b shared cells) (ha : args.Sensible) (hdt : args.dtypes = .none) (hfl : args.filters = .none)
    (row : Nat)
    (hrow : lookupRowV env (heldView env o b shared cells) (firstSeen cells) args.lookupSize.toNat search args.lookup =
      .ok (some row))
    (hlen : args.header.height + row + args.skipAfter < maxSpan cells) (t : Table A)
    (h : readCells env lib search reMatch args (freshSeries shared b o) cells = .ok t)
    (j : Nat) (k : Int) (hj : (columnsOf cells)[j]? = some k) (rows : List (Option (Nat × Option Val)))
    (hrows : rows = window (heldRows env b shared (rawColumn (colCells cells k)))
      (args.header.height + row + args.skipAfter).toNat (maxSpan cells - row - args.header.height - args.skipAfter).toNat) :
    ∃ arr, t.arrays[j]? = some (lib.ofFetched (.arr arr)) ∧ arr.vals.map Option.isNone = rows.map fun r => match r with
      | none => true
      | some (_, some _) => false
      | some (n, none) => !rewritten env o rows n := by
  rw [read_held_arrays env b shared o lib search reMatch args cells hne hv ha hdt hfl row hrow hlen t h, List.getElem?_map, hj]
  simp only [Option.map_some]
  rw [← hrows]
  exact ⟨_, rfl, fetchedHeld_nulls env o rows⟩

/-- C31, exactly: in a column that is text in the table, a text is shown as it is unless its run is rewritten, and then as
the text of the moment or number it was rewritten as; a number is shown as the text of a moment exactly if temporal
resolution is on and the column has moments. -/
theorem C31_exact {A D : Type} (env : Env) (b : Bool) (shared : List (Option Str)) (o : ConcatOpts)
    (lib : Lib A D) (search : Str → Option (Str → Bool)) (reMatch : Str → Str → Py Bool)
    (args : ReadArgs D) (cells : List Cell) (hne : cells ≠ [])
    (hv : ValidCells env b shared cells) (ha : args.Sensible) (hdt : args.dtypes = .none) (hfl : args.filters = .none)
    (row : Nat)
    (hrow : lookupRowV env (heldView env o b shared cells) (firstSeen cells) args.lookupSize.toNat search args.lookup =
      .ok (some row))
    (hlen : args.header.height + row + args.skipAfter < maxSpan cells) (t : Table A)
    (h : readCells env lib search reMatch args (freshSeries shared b o) cells = .ok t)
    (j : Nat) (k : Int) (hj : (columnsOf cells)[j]? = some k) (rows : List (Option (Nat × Option Val)))
    (hrows : rows = window (heldRows env b shared (rawColumn (colCells cells k)))
      (args.header.height + row + args.skipAfter).toNat (maxSpan cells - row - args.header.height - args.skipAfter).toNat) :
    ∃ arr, t.arrays[j]? = some (lib.ofFetched (.arr arr)) ∧ (arr.dtype = .utf8 →
      (∀ (i n : Nat) (s : Str), rows[i]? = some (some (n, some (.str s))) → arr.vals[i]? =
        some (some (.str (if rewritten env o rows n then rewrittenText env o rows n s else s)))) ∧
      ∀ (i n : Nat) (x : F64), rows[i]? = some (some (n, some (.f8 x))) → arr.vals[i]? =
        some (some (.str (if o.confDt && (heldCells rows).any isTs then env.renderTs (f8ToMsWin x)
          else env.renderF8 x)))) := by
  rw [read_held_arrays env b shared o lib search reMatch args cells hne hv ha hdt hfl row hrow hlen t h, List.getElem?_map, hj]
  simp only [Option.map_some]
  rw [← hrows]
  exact ⟨_, rfl, fun hd => ⟨fun i n s hi => shown_text hi hd, fun i n x hi => shown_number hi hd⟩⟩

/-- `read` with numeric resolution. -/
def exShown (cells : List Cell) : Py (List Fetched) :=
  match readCells demoEnv exLib (fun _ => none) (fun _ _ => .ok false) {} (freshSeries [] true ⟨false, true, [], 6⟩) cells with
  | .ok t => .ok t.arrays
  | .error e => .error e

/-- The cells of the example: numbers, and two runs of texts. -/
def exShownRows : List (Option (Nat × Option Val)) :=
  [some (0, some (.f8 (.fin 1))), some (1, some (.str ['0', '0', '7'])), some (2, some (.f8 (.fin 2))),
    some (3, some (.str ['x']))]

/-- The first run of texts is rewritten, the second is no number and makes the column text. -/
example : exShown [nm 0 0 1, tx 1 0 ['0', '0', '7'], nm 2 0 2, tx 3 0 ['x']] =
    .ok [.arr ⟨.utf8, [some (.str ['1']), some (.str ['7']), some (.str ['2']), some (.str ['x'])]⟩] ∧
    rewritten demoEnv ⟨false, true, [], 6⟩ exShownRows 1 = true ∧
    rewritten demoEnv ⟨false, true, [], 6⟩ exShownRows 3 = false ∧
    rewrittenText demoEnv ⟨false, true, [], 6⟩ exShownRows 1 ['0', '0', '7'] = ['7'] := by
  decide +kernel

end Rxls
