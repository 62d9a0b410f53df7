import Verif.Spec.SkipCols
import Verif.Lemmas.Xlsx

/-! # `skip_cols` row by row -/

namespace Rxls

/-- What is left of a row. -/
def keptItems (cols : List Int) (is : List Item) : List Item := is.filter fun i => !cols.contains i.1

theorem keptItems_cells (cols : List Int) (row : Nat) (is : List Item) :
    evCells ((keptItems cols is).map fun i => Ev.cell ⟨row, i.1, i.2.1, i.2.2⟩) =
      (evCells (is.map fun i => Ev.cell ⟨row, i.1, i.2.1, i.2.2⟩)).filter fun c => !cols.contains c.col := by
  rw [evCells_map _ fun i : Item => (⟨row, i.1, i.2.1, i.2.2⟩ : Cell),
    evCells_map _ fun i : Item => (⟨row, i.1, i.2.1, i.2.2⟩ : Cell), List.filter_map]
  rfl

theorem leadingEmpty_cons' (is : List Item) (L : List (List Item)) :
    leadingEmpty (is :: L) = if is = [] then leadingEmpty L + 1 else 0 := by
  cases is <;> simp [leadingEmpty]

/-- The state in which the first row with a value is still to come, and stays where it is. -/
def StillOk (k : Nat) (keep : Bool) (cols : List Int) (L : List (List Item)) (row : Nat) : Prop :=
  if keep then leadingEmpty ((L.map (keptItems cols)).drop (k - row)) = leadingEmpty (L.drop (k - row))
  else k ≤ row → leadingEmpty (L.map (keptItems cols)) = leadingEmpty L

theorem runRowsX_cols (k t : Nat) (keep : Bool) (cols : List Int) (bad : Bool) (L : List (List Item)) :
    ∀ (row : Nat) (empty : Bool) (take : Nat), (empty = true → StillOk k keep cols L row) →
      evCells (runRowsX ⟨k, t, keep, cols⟩ bad (L.map (keptItems cols)) row empty take).1 =
        (evCells (runRowsX ⟨k, t, keep, []⟩ bad L row empty take).1).filter fun c => !cols.contains c.col := by
  induction L with
  | nil => intros; rfl
  | cons is L ih =>
    intro row empty take hst
    simp only [List.map_cons, runRowsX]
    have hif : (if k ≤ row then keptItems cols is else []) = keptItems cols (if k ≤ row then is else []) := by
      split
      · rfl
      · rfl
    rw [hif]
    set is' := if k ≤ row then is else [] with his
    have hem : (empty && (keptItems cols is').isEmpty) = (empty && is'.isEmpty) := by
      cases empty with
      | false => rfl
      | true =>
        simp only [Bool.true_and]
        by_cases hk : k ≤ row
        · have h := hst rfl
          unfold StillOk at h
          rw [his, if_pos hk]
          have h' : leadingEmpty (keptItems cols is :: L.map (keptItems cols)) = leadingEmpty (is :: L) := by
            cases keep with
            | true => simpa [Nat.sub_eq_zero_of_le hk] using h
            | false => simpa [hk] using h
          rw [leadingEmpty_cons', leadingEmpty_cons'] at h'
          cases is with
          | nil => rfl
          | cons i is =>
            rw [if_neg (List.cons_ne_nil _ _)] at h'
            by_cases hn : keptItems cols (i :: is) = []
            · rw [if_pos hn] at h'; omega
            · cases hx : keptItems cols (i :: is) with
              | nil => exact absurd hx hn
              | cons _ _ => rfl
        · rw [his, if_neg hk]
          rfl
    rw [hem]
    set row' := if (!(empty && is'.isEmpty) || keep) = true then row + 1 else row with hrow
    generalize (take + if (empty && is'.isEmpty && keep) = true then 2 else 0) = take'
    split
    · simp only [evCells_append, keptItems_cells, List.filter_append]
      simp [evCells]
    · simp only [evCells_append, keptItems_cells, List.filter_append]
      rw [ih]
      · simp [evCells]
      · intro he
        simp only [Bool.and_eq_true] at he
        obtain ⟨rfl, hie⟩ := he
        have h := hst rfl
        unfold StillOk at h ⊢
        have hi0 : is' = [] := List.isEmpty_iff.1 hie
        cases keep with
        | true =>
          simp only [if_true, List.map_cons] at h ⊢
          have hr : row' = row + 1 := by rw [hrow]; simp
          rw [hr]
          by_cases hk : k ≤ row
          · rw [his, if_pos hk] at hi0
            subst hi0
            rw [Nat.sub_eq_zero_of_le hk] at h
            rw [Nat.sub_eq_zero_of_le (by omega)]
            simp only [List.drop_zero] at h ⊢
            rw [leadingEmpty_cons', leadingEmpty_cons'] at h
            simpa [keptItems] using h
          · have : k - row = (k - (row + 1)) + 1 := by omega
            rw [this] at h
            simpa using h
        | false =>
          simp only [Bool.false_eq_true, if_false, List.map_cons] at h ⊢
          have hr : row' = row := by rw [hrow]; simp [hie]
          rw [hr]
          intro hk
          rw [his, if_pos hk] at hi0
          subst hi0
          have h := h hk
          rw [leadingEmpty_cons', leadingEmpty_cons'] at h
          simpa [keptItems] using h

theorem runRows_cols (styles : List Bytes) (isNull : Str → Bool) (nulls : List Bytes) (k t : Nat) (keep : Bool)
    (cols : List Int) (fin : Bool) (rows : List SheetRow) :
    ∀ (L : List (List Item)) (row : Int) (empty : Bool),
      sheetItems (xlsbCell styles isNull nulls []) rows = .ok L → (keep = true ∨ RowsStay cols L) →
      ∃ evs evs', runRows (xlsbCell styles isNull nulls []) ⟨k, t, keep, []⟩ fin rows row empty = .ok evs ∧
        runRows (xlsbCell styles isNull nulls cols) ⟨k, t, keep, cols⟩ fin rows row empty = .ok evs' ∧
        evCells evs' = (evCells evs).filter fun c => !cols.contains c.col := by
  have hkeep : ∀ row : Int, ∀ e : Bool, keep = true → (if (!e || keep) = true then row + 1 else row) = row + 1 := by
    intro row e h; simp [h]
  suffices key : ∀ (L : List (List Item)) (row : Int) (empty empty' : Bool),
      (keep = true ∨ empty = empty') →
      sheetItems (xlsbCell styles isNull nulls []) rows = .ok L → (keep = true ∨ RowsStay cols L) →
      ∃ evs evs', runRows (xlsbCell styles isNull nulls []) ⟨k, t, keep, []⟩ fin rows row empty = .ok evs ∧
        runRows (xlsbCell styles isNull nulls cols) ⟨k, t, keep, cols⟩ fin rows row empty' = .ok evs' ∧
        evCells evs' = (evCells evs).filter fun c => !cols.contains c.col from
    fun L row empty h hs => key L row empty empty (.inr rfl) h hs
  induction rows with
  | nil =>
    intro L row empty empty' _ _ _
    refine ⟨_, _, rfl, rfl, ?_⟩
    split <;> rfl
  | cons r rows ih =>
    intro L row empty empty' hee h hs
    rw [sheetItems] at h
    cases hi : rowItems (xlsbCell styles isNull nulls []) r.cells with
    | error e => simp [hi] at h
    | ok is =>
      cases hr : sheetItems (xlsbCell styles isNull nulls []) rows with
      | error e => simp [hi, hr] at h
      | ok L' =>
        simp only [hi, hr, Except.ok.injEq] at h
        subst h
        have hs' : keep = true ∨ RowsStay cols L' := hs.imp id fun h is hm => h is (List.mem_cons_of_mem _ hm)
        have hrow : (if (!empty' || keep) = true then row + 1 else row) = if (!empty || keep) = true then row + 1 else row := by
          rcases hee with h | h
          · simp [h]
          · rw [h]
        simp only [runRows, hrow, hi, rowItems_skip cols _ _ hi]
        set row' := if (!empty || keep) = true then row + 1 else row
        split
        · exact ⟨_, _, rfl, rfl, rfl⟩
        · split
          · have hem : keep = true ∨ is.isEmpty = (is.filter fun i => !cols.contains i.1).isEmpty := by
              rcases hs with h | h
              · exact .inl h
              · right
                cases is with
                | nil => rfl
                | cons i is =>
                  obtain ⟨j, hj, hc⟩ := h _ List.mem_cons_self (List.cons_ne_nil _ _)
                  have : j ∈ (i :: is).filter fun i => !cols.contains i.1 := List.mem_filter.2 ⟨hj, by simp [hc]⟩
                  cases hf : (i :: is).filter fun i => !cols.contains i.1 with
                  | nil => rw [hf] at this; cases this
                  | cons _ _ => rfl
            obtain ⟨evs, evs', h1, h2, h3⟩ := ih L' row' is.isEmpty (is.filter fun i => !cols.contains i.1).isEmpty hem hr hs'
            rw [h1, h2]
            refine ⟨_, _, rfl, rfl, ?_⟩
            have := keptItems_cells cols (row' - k).toNat is
            unfold keptItems at this
            simp only [List.cons_append, evCells_callback, evCells_append, List.filter_append, this, h3]
          · exact ih L' row' true true (.inr rfl) hr hs'

end Rxls
