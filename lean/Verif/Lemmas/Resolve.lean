import Verif.Props.Table

/-! # Tables without filters and casts, column by column -/

namespace Rxls

theorem readCells_arrays {A D : Type} (env : Env) (b : Bool) (shared : List (Option Str)) (o : ConcatOpts)
    (lib : Lib A D) (search : Str → Option (Str → Bool)) (reMatch : Str → Str → Py Bool) (args : ReadArgs D)
    (cells : List Cell) (hne : cells ≠ []) (hr : ∀ k, Resolvable env o (inlineColumn cells k) (colValues env b shared cells k))
    (hv : PresentCells env b shared cells) (ha : 0 < args.lookupSize ∧ 0 ≤ args.header.height)
    (hdt : args.dtypes = .none) (hfl : args.filters = .none) (row : Nat)
    (hrow : lookupRow env o (colValues env b shared cells) (firstSeen cells) args.lookupSize.toNat search
      args.lookup = .ok (some row))
    (hpos : 0 < maxSpan cells - row - args.header.height - args.skipAfter) (t : Table A)
    (h : readCells env lib search reMatch args (freshSeries shared b o) cells = .ok t) :
    t.arrays = (columnsOf cells).map fun k => lib.ofFetched (.arr (fetched env o
      (window (colValues env b shared cells k) (args.header.height + row + args.skipAfter).toNat
        (maxSpan cells - row - args.header.height - args.skipAfter).toNat))) := by
  rw [readCells_sheet env b shared o lib search reMatch args cells hne hr hv ha.1 ha.2 (by
    intro r hr
    rw [hrow] at hr
    injection hr with hr
    injection hr with hr
    subst hr
    omega)] at h
  obtain ⟨r, names, fs, m, arrays, g1, g2, g3, g4, g5, rfl⟩ := sheetTable_inv h
  rw [hrow] at g1
  injection g1 with g1
  injection g1 with g1
  subst g1
  rw [hfl, filterKeys] at g3
  injection g3 with g3
  subst g3
  rw [maskFor, if_pos (by rfl)] at g4
  injection g4 with g4
  subst g4
  rw [hdt, applyDtypes] at g5
  injection g5 with g5
  subst g5
  rfl

/-- The type of numbers alone, of moments alone. -/
theorem columnType_nums (prec : Nat) (cells : List (Option Val)) (h : ∀ v, some v ∈ cells → ∃ x, v = .f8 x)
    (hn : cells.any isNum = true) : columnType prec cells = .i8 ∨ columnType prec cells = .f8 := by
  have h1 : cells.any isTs = false := by
    rw [List.any_eq_false]
    intro v hv
    cases v with
    | none => simp [isTs]
    | some v => obtain ⟨x, rfl⟩ := h v hv; simp [isTs]
  have h2 : cells.any isText = false := by
    rw [List.any_eq_false]
    intro v hv
    cases v with
    | none => simp [isText]
    | some v => obtain ⟨x, rfl⟩ := h v hv; simp [isText]
  unfold columnType
  rw [h1, h2, hn]
  simp only [Bool.toNat_false, Bool.toNat_true]
  cases cells.all (wholeNum prec) <;> simp

theorem columnType_moments (prec : Nat) (cells : List (Option Val)) (h : ∀ v, some v ∈ cells → ∃ x, v = .ts x)
    (hn : cells.any isTs = true) : columnType prec cells = .ts := by
  have h1 : cells.any isNum = false := by
    rw [List.any_eq_false]
    intro v hv
    cases v with
    | none => simp [isNum]
    | some v => obtain ⟨x, rfl⟩ := h v hv; simp [isNum]
  have h2 : cells.any isText = false := by
    rw [List.any_eq_false]
    intro v hv
    cases v with
    | none => simp [isText]
    | some v => obtain ⟨x, rfl⟩ := h v hv; simp [isText]
  unfold columnType
  rw [h1, h2, hn]
  rfl

end Rxls
