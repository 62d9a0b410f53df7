import Verif.Lemmas.XGrid
import Verif.Props.EndToEnd

/-! # The cells delivered from a file, with all arguments of `iter_worksheet` -/

namespace Rxls

theorem forall2_drop {α β : Type} {R : α → β → Prop} {L : List α} {V : List β} (h : List.Forall₂ R L V) (n : Nat) :
    List.Forall₂ R (L.drop n) (V.drop n) := by
  induction h generalizing n with
  | nil => simp
  | cons h t ih =>
    cases n with
    | zero => exact .cons h t
    | succ n => exact ih n

theorem forall2_leading {α β : Type} {R : α → β → Prop} {L : List (List α)} {V : List (List β)}
    (h : List.Forall₂ (List.Forall₂ R) L V) :
    (L.takeWhile List.isEmpty).length = (V.takeWhile List.isEmpty).length := by
  induction h with
  | nil => rfl
  | cons h _ ih =>
    cases h with
    | nil => simpa using ih
    | cons => rfl

theorem forall2_xlsxRows {α β : Type} {R : α → β → Prop} {L : List (List α)} {V : List (List β)}
    (h : List.Forall₂ (List.Forall₂ R) L V) (k t : Nat) (keep : Bool) :
    List.Forall₂ (List.Forall₂ R) (xlsxRows k t keep L) (xlsxRows k t keep V) := by
  unfold xlsxRows
  cases keep with
  | true =>
    simp only [if_true, forall2_leading (forall2_drop h k)]
    split
    · exact forall2_drop h k
    · exact forall2_take (forall2_drop h k) _
  | false =>
    simp only [Bool.false_eq_true, if_false]
    split
    · split
      · exact forall2_dropWhile h
      · exact forall2_take (forall2_dropWhile h) _
    · exact .nil

theorem forall2_xlsbRows {α β : Type} [DecidableEq α] [DecidableEq β] {R : α → β → Prop} {L : List (List α)}
    {V : List (List β)} (h : List.Forall₂ (List.Forall₂ R) L V) (k t : Nat) (keep : Bool) :
    List.Forall₂ (List.Forall₂ R) (xlsbRows k t keep L) (xlsbRows k t keep V) := by
  unfold xlsbRows
  cases keep with
  | true =>
    simp only [if_true]
    split
    · exact h
    · exact forall2_take (forall2_drop h k) _
  | false =>
    simp only [Bool.false_eq_true, if_false]
    split
    · split
      · exact forall2_nonEmpty h
      · exact forall2_take (forall2_nonEmpty h) _
    · exact .nil

/-- The cells from an XLSX sheet. -/
theorem xlsx_delivers (styles : List (Str × Nat)) (isNull : Str → Bool) (k t : Nat) (keep : Bool) (cols : List Int)
    (s : XSheet) (hs : s.Ok) :
    evCells (xlsxSheet styles isNull ⟨k, t, keep, cols⟩ ⟨s.events, false⟩).1 =
      itemsFrom 0 (xlsxRows k t keep ((s.rows.map (XRow.items styles isNull [])).map
        fun is => is.filter fun i => !cols.contains i.1)) := by
  have hL : (s.rows.map (XRow.items styles isNull [])).map (fun is => is.filter fun i => !cols.contains i.1) =
      s.rows.map (XRow.items styles isNull cols) := by
    rw [List.map_map]
    apply List.map_congr_left
    intro r _
    exact (items_skip cols r).symm
  rw [hL]
  cases keep with
  | true =>
    rw [C38_xlsx_window_exact styles isNull k t cols s hs, numbered_true]
    rfl
  | false =>
    by_cases hk : k = 0
    · subst hk
      obtain ⟨h1, _, _⟩ := sheet_drop (styles := styles) (isNull := isNull) (bad := false) s hs t cols _ rfl
      rw [h1]
      simp only [numberedFrom, if_true, itemsFrom_zipIdx, winRows, Nat.sub_zero]
      rfl
    · rw [C38_xlsx_default_delivers_nothing styles isNull k t (by omega) cols s hs]
      simp [xlsxRows, hk, itemsFrom]

/-- The cells from an XLSB sheet. -/
theorem xlsb_delivers (styles : List Bytes) (isNull : Str → Bool) (nulls : List Bytes) (k t : Nat) (keep : Bool)
    (cols : List Int) (p : SheetParts) (hp : p.Ok) (ht : k = 0 ∨ ∀ r ∈ p.tail, r.recId ≠ 0) (L : List (List Item))
    (hL : sheetItems (xlsbCell styles isNull nulls []) p.rows = .ok L) :
    ∃ evs, iterXlsb styles isNull (fun _ => nulls) ⟨k, t, keep, cols⟩ p.records {} = .ok evs ∧
      evCells evs = itemsFrom 0 (xlsbRows k t keep (L.map fun is => is.filter fun i => !cols.contains i.1)) := by
  have hL' := sheetItems_skip cols p.rows L hL
  have hm0 : ∀ l : List Cell, l.map (fun c : Cell => ({ c with row := c.row - 0 } : Cell)) = l := by
    intro l
    have e : (fun c : Cell => ({ c with row := c.row - 0 } : Cell)) = id := by funext c; cases c; rfl
    rw [e, List.map_id]
  have hlim : ∀ (t : Nat) (M : List (List Item)),
      ((itemsFrom 0 M).filter fun c => inWindow 0 t c.row) = itemsFrom 0 (if t = 0 then M else M.take (t + 1)) := by
    intro t M
    by_cases h0 : t = 0
    · subst h0
      rw [if_pos rfl, List.filter_eq_self]
      intro c _
      simp [inWindow]
    · rw [if_neg h0, ← itemsFrom_take]
      apply List.filter_congr
      intro c _
      simp [inWindow]
      omega
  rw [iter_parts p hp ht]
  cases keep with
  | true =>
    obtain ⟨evs, h1, h2⟩ := runRows_window (xlsbCell styles isNull nulls cols) (!p.tail.isEmpty) k t true cols
      (Or.inr rfl) p.rows (-1) false 0 _ rfl hL'
    refine ⟨evs, h1, ?_⟩
    rw [h2]
    simp only [xlsbRows, if_true]
    by_cases hkt : t + k = 0
    · rw [if_pos hkt]
      obtain rfl : k = 0 := by omega
      obtain rfl : t = 0 := by omega
      rw [hm0, numberedFrom]
      simp only [if_true, itemsFrom_zipIdx]
      rw [hlim 0]
      rfl
    · rw [if_neg hkt, window_rows k t (by omega), numberedFrom]
      simp only [if_true, itemsFrom_zipIdx]
  | false =>
    by_cases hk : k = 0
    · subst hk
      obtain ⟨evs, h1, h2⟩ := runRows_window (xlsbCell styles isNull nulls cols) (!p.tail.isEmpty) 0 t false cols
        (Or.inl rfl) p.rows (-1) false 0 _ rfl hL'
      refine ⟨evs, h1, ?_⟩
      rw [h2, hm0, numberedFrom]
      simp only [Bool.false_eq_true, if_false, itemsFrom_zipIdx, xlsbRows, if_true]
      exact hlim t _
    · refine ⟨[], runRows_stuck _ _ k t (by omega) cols p.rows (-1) false rfl (by omega), ?_⟩
      simp [xlsbRows, hk, evCells, itemsFrom]

theorem readCells_none {A D : Type} (env : Env) (lib : Lib A D) (search : Str → Option (Str → Bool))
    (reMatch : Str → Str → Py Bool) (args : ReadArgs D) (fresh : Series) :
    readCells env lib search reMatch args fresh [] = .error .valueError := rfl

/-- `read` on the cells of rows with these values, if any. -/
theorem readCells_shown {A D : Type} {env : Env} {b : Bool} {shared : List (Option Str)} {L : List (List Item)}
    {V : VGrid} {inl : Int → Bool} (h : List.Forall₂ (List.Forall₂ (MeansIn env b shared inl)) L V)
    (o : ConcatOpts) (hres : V.Resolvable env o inl) (lib : Lib A D)
    (search : Str → Option (Str → Bool)) (reMatch : Str → Str → Py Bool) (args : ReadArgs D) (ha : args.Sensible)
    (hdata : V.flatten ≠ [] → V.HasData env search args o) :
    readCells env lib search reMatch args (freshSeries shared b o) (itemsFrom 0 L) =
      if V.flatten = [] then .error .valueError else V.table env lib search reMatch args o := by
  by_cases hne : V.flatten = []
  · rw [if_pos hne]
    have := (itemsFrom_cols L 0).trans (means_cols (MeansIn.means h))
    rw [VGrid.cols, hne, List.map_nil, List.map_eq_nil_iff] at this
    rw [this]
    exact readCells_none ..
  · rw [if_neg hne]
    exact readCells_values h o hres lib search reMatch args ha hne (hdata hne)

end Rxls
