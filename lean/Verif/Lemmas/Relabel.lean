import Verif.Spec.History
import Mathlib.Data.List.Basic

/-! # Which tags stand for the kinds of cells makes no difference, shared strings apart -/

namespace Rxls

/-- Other tags for the kinds. -/
def HGrid.relabel (f : Nat → Nat) (g : HGrid) : HGrid := g.map (List.map fun c => (c.1, f c.2.1, c.2.2))

variable {f : Nat → Nat}

theorem relabel_shape (g : HGrid) : HGrid.shape (g.relabel f) = g.shape := by
  unfold HGrid.shape HGrid.relabel
  rw [List.map_map]
  refine List.map_congr_left fun row _ => ?_
  simp only [Function.comp, List.map_map]
  rfl

theorem relabel_at (g : HGrid) (k : Int) (r : Nat) : HGrid.at (g.relabel f) k r = (g.at k r).map fun c => (f c.1, c.2) := by
  unfold HGrid.at HGrid.relabel
  have : (g.map (List.map fun c : Int × Nat × Option Val => (c.1, f c.2.1, c.2.2))).getD r [] =
      (g.getD r []).map fun c => (c.1, f c.2.1, c.2.2) := by
    simp only [List.getD_eq_getElem?_getD, List.getElem?_map]
    cases g[r]? <;> rfl
  rw [this, List.find?_map, Option.map_map, Option.map_map]
  rfl

theorem relabel_column (g : HGrid) (k : Int) :
    HGrid.column (g.relabel f) k = (g.column k).map (Option.map fun c => (f c.1, c.2)) := by
  unfold HGrid.column
  rw [List.map_map]
  have : (g.relabel f).length = g.length := by simp [HGrid.relabel]
  rw [this]
  exact List.map_congr_left fun r _ => relabel_at g k r

theorem relabel_runNumbers {α : Type} (hf : Function.Injective f) (rows : List (Option (Nat × α))) (n : Nat)
    (prev : Option (Option Nat)) :
    runNumbers n (prev.map (Option.map f)) (rows.map (Option.map fun c => (f c.1, c.2))) = runNumbers n prev rows := by
  induction rows generalizing n prev with
  | nil => rfl
  | cons r rs ih =>
    have hm : (r.map fun c => (f c.1, c.2)).map (·.1) = (r.map (·.1)).map f := by cases r <;> rfl
    have hiff : (prev.map (Option.map f) = some ((r.map (·.1)).map f)) ↔ prev = some (r.map (·.1)) := by
      have : some ((r.map (·.1)).map f) = (some (r.map (·.1))).map (Option.map f) := rfl
      rw [this]
      exact (Option.map_injective (Option.map_injective hf)).eq_iff
    rw [List.map_cons, runNumbers, runNumbers]
    simp only [hm, hiff]
    congr 1
    exact ih _ (some (r.map (·.1)))

theorem relabel_rows (hf : Function.Injective f) (g : HGrid) (k : Int) : HGrid.rows (g.relabel f) k = g.rows k := by
  unfold HGrid.rows
  rw [relabel_column]
  have := relabel_runNumbers hf (g.column k) 0 none
  rw [Option.map_none] at this
  rw [this, List.zipWith_map_right]
  congr 1
  funext n r
  cases r <;> rfl

theorem relabel_shared (hf : Function.Injective f) (h11 : f 0x11 = 0x11) (g : HGrid) (k : Int) :
    sharedRuns (HGrid.column (g.relabel f) k) = sharedRuns (g.column k) := by
  unfold sharedRuns
  rw [relabel_column]
  have := relabel_runNumbers hf (g.column k) 0 none
  rw [Option.map_none] at this
  rw [this, List.zipWith_map_right]
  congr 2
  funext n r
  cases r with
  | none => rfl
  | some c =>
    have : (f c.1 = 0x11) ↔ c.1 = 0x11 := by
      conv_lhs => rw [← h11]
      exact hf.eq_iff
    simp only [Option.map_some, Option.some.injEq, this]

theorem relabel_flatten (g : HGrid) : (g.relabel f).flatten = [] ↔ g.flatten = [] := by
  unfold HGrid.relabel
  rw [← List.map_flatten, List.map_eq_nil_iff]

theorem relabel_view (hf : Function.Injective f) (env : Env) (o : ConcatOpts) (g : HGrid) :
    HGrid.view env o (g.relabel f) = g.view env o := by
  unfold HGrid.view
  funext k off len m
  rw [relabel_rows hf]

theorem relabel_cols (hf : Function.Injective f) (h11 : f 0x11 = 0x11) (g : HGrid) : HGrid.cols (g.relabel f) = g.cols := by
  unfold HGrid.cols
  funext k
  rw [relabel_rows hf, relabel_shared hf h11]

theorem relabel_outcome {A D : Type} (hf : Function.Injective f) (h11 : f 0x11 = 0x11) (env : Env) (lib : Lib A D)
    (search : Str → Option (Str → Bool)) (reMatch : Str → Str → Py Bool) (args : ReadArgs D) (o : ConcatOpts) (g : HGrid) :
    HGrid.outcome env lib search reMatch args o (g.relabel f) = g.outcome env lib search reMatch args o := by
  unfold HGrid.outcome HGrid.clashes
  rw [relabel_shape, relabel_view hf, relabel_cols hf h11]
  simp only [relabel_flatten]

theorem relabel_dataOrEnd {D : Type} (hf : Function.Injective f) (env : Env) (search : Str → Option (Str → Bool))
    (reMatch : Str → Str → Py Bool) (args : ReadArgs D) (o : ConcatOpts) (g : HGrid) :
    HGrid.DataOrEnd env search reMatch args o (g.relabel f) ↔ g.DataOrEnd env search reMatch args o := by
  unfold HGrid.DataOrEnd
  rw [relabel_shape, relabel_view hf]
  simp only [relabel_at, Option.map_eq_none_iff]

theorem relabel_without (cols : List Int) (g : HGrid) : HGrid.without cols (g.relabel f) = (g.without cols).relabel f := by
  unfold HGrid.without HGrid.relabel
  rw [List.map_map, List.map_map]
  refine List.map_congr_left fun row _ => ?_
  simp only [Function.comp, List.filter_map]
  rfl

theorem relabel_xlsbRows (k t : Nat) (keep : Bool) (g : HGrid) : xlsbRows k t keep (g.relabel f) = HGrid.relabel f (xlsbRows k t keep g) := by
  unfold xlsbRows HGrid.relabel
  have hfil : ∀ L : HGrid, (L.map (List.map fun c => (c.1, f c.2.1, c.2.2))).filter (· ≠ []) =
      (L.filter (· ≠ [])).map (List.map fun c => (c.1, f c.2.1, c.2.2)) := by
    intro L
    rw [List.filter_map]
    congr 1
    refine List.filter_congr fun r _ => ?_
    simp
  split
  · split
    · rfl
    · rw [← List.map_drop, List.map_take]
  · split
    · simp only [hfil]
      split
      · rfl
      · rw [List.map_take]
    · rfl

theorem keepFirst_all {α : Type} (p : α → Bool) (L : List (List α)) (h : ∀ r ∈ L, ∀ x ∈ r, p x = true) : keepFirst p L = L := by
  induction L with
  | nil => rfl
  | cons r L ih =>
    cases r with
    | nil =>
      rw [keepFirst, ih fun r hr => h r (by simp [hr])]
    | cons x r =>
      rw [keepFirst, List.filter_eq_self.mpr fun y hy => h (x :: r) (by simp) y (by simp [hy])]
      congr 1
      conv_rhs => rw [← List.map_id L]
      exact List.map_congr_left fun r hr => List.filter_eq_self.mpr (h r (by simp [hr]))

end Rxls
