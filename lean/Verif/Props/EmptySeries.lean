import Verif.Props.Series
import Verif.Spec.DemoEnv

/-! # Property C92: a column without cells; C35: when the length is right -/

namespace Rxls

/-- C35: `len` of a column is the number of rows down to its last cell exactly when its first cell is in row 0. -/
theorem C35_exact (env : Env) (binary : Bool) (shared : List (Option Str)) (o : ConcatOpts)
    (c : Cell) (cs : List Cell) (s : Series)
    (h : Series.addAll env (c :: cs) (freshSeries shared binary o) = .ok s) :
    s.len = height (c :: cs) ↔ c.row = 0 := by
  rw [C35_len_is_span env binary shared o c cs s h]
  omega

example : (Series.addAll demoEnv [⟨2, 0, TYPE_STRING, .text ['a']⟩, ⟨5, 0, TYPE_STRING, .text ['b']⟩]
      (freshSeries [] true ⟨false, false, [], 6⟩)).toOption.map (·.len) = some 4 := by
  decide +kernel

/-- C92.  A column without cells is a column of as many nulls as rows are asked for, as array and as texts; asking changes
nothing. -/
theorem C92_nulls (env : Env) (shared : List (Option Str)) (b : Bool) (o : ConcatOpts) (offset : Int) (length : Nat) :
    (freshSeries shared b o).toArrow env offset length none = (freshSeries shared b o, .ok (.nulls length)) ∧
    (freshSeries shared b o).toUtf8 env offset length none =
      (freshSeries shared b o, .ok (List.replicate length none)) := by
  constructor <;> simp [freshSeries, Series.toUtf8, Series.toArrow, Series.flush]

/-- C92.  Cells that come later are not disturbed by such a reading. -/
theorem C92_then_add (env : Env) (shared : List (Option Str)) (b : Bool) (o : ConcatOpts) (offset length : Int)
    (cells : List Cell) :
    Series.addAll env cells ((freshSeries shared b o).toArrow env offset length none).1 =
      Series.addAll env cells (freshSeries shared b o) := by
  simp [freshSeries, Series.toArrow, Series.flush]

/-- C92, finding: the mask is not looked at.  A column without cells has as many rows as are asked for, a column with
cells as many as the mask keeps. -/
theorem C92_mask_finding :
    ∃ mask : List Bool, mask = [true, false, true] ∧
      ((freshSeries [] true ⟨false, false, [], 6⟩).toArrow demoEnv 0 3 (some mask)).2 = .ok (.nulls 3) ∧
      (match Series.addAll demoEnv [⟨0, 0, TYPE_STRING, .text ['a']⟩] (freshSeries [] true ⟨false, false, [], 6⟩) with
        | .ok s => (s.toArrow demoEnv 0 3 (some mask)).2
        | .error e => .error e) = .ok (.arr ⟨.utf8, [some (.str ['a']), none]⟩) :=
  ⟨_, rfl, by decide +kernel⟩

/-- C92: with a mask for the rows asked for, the number of nulls is the number of rows that the mask keeps exactly when
the mask keeps all of them. -/
theorem C92_mask_exact (env : Env) (shared : List (Option Str)) (b : Bool) (o : ConcatOpts) (offset : Int)
    (mask : List Bool) :
    (freshSeries shared b o).toArrow env offset mask.length (some mask) =
        (freshSeries shared b o, .ok (.nulls (mask.filter id).length)) ↔ ∀ m ∈ mask, m = true := by
  have e : (freshSeries shared b o).toArrow env offset mask.length (some mask) =
      (freshSeries shared b o, .ok (.nulls mask.length)) := by
    simp [freshSeries, Series.toArrow, Series.flush]
  rw [e]
  constructor
  · intro h
    injection h with _ h
    injection h with h
    injection h with h
    exact List.length_filter_eq_length_iff.1 h.symm
  · intro h
    rw [show mask.filter id = mask from List.filter_eq_self.2 h]

example : ((freshSeries [] true ⟨false, false, [], 6⟩).toArrow demoEnv 7 2 (some [true, true])).2 = .ok (.nulls 2) := by
  decide +kernel

/-- C92, finding: its length is one, not zero; a column with one cell in the first row has the same length. -/
theorem C92_length_finding (env : Env) (shared : List (Option Str)) (b : Bool) (o : ConcatOpts) (v : Raw) (t : Nat) :
    (freshSeries shared b o).len = 1 ∧
    ∃ s, (freshSeries shared b o).add env ⟨0, 0, t, v⟩ = .ok s ∧ s.len = 1 := by
  refine ⟨rfl, ?_⟩
  by_cases ht : t = 0
  · subst ht
    exact ⟨_, rfl, rfl⟩
  · refine ⟨_, by simp [freshSeries, Series.add, Series.gap, Series.retype, Series.flush, ht]; rfl, rfl⟩

example : ((freshSeries [] false ⟨true, true, [], 6⟩).toUtf8 demoEnv 5 3 none).2 = .ok [none, none, none] := by
  decide +kernel

end Rxls
