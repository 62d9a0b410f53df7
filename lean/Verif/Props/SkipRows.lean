import Verif.Props.EndToEndXlsx

/-! # C39, C42, C66: when the rows of a sheet are those asked for -/

namespace Rxls

theorem take_eq_iff {α : Type} (n : Nat) (l : List α) : l.take n = l ↔ l.length ≤ n := by
  rw [List.take_eq_self_iff]

/-- C66: all the rows from row `skip_rows` on are given exactly when: for XLSB, at most `take_rows + 1` are left; for XLSX,
at most `take_rows + 2 (skip_rows + e) + 1`, where `e` of the rows that are left come before the first value; for both,
without `take_rows_non_empty`, none is left. -/
theorem C66_exact (k t : Nat) (hk : 0 < k) (cols : List Int) (V : VGrid) :
    (V.shownXlsb k t true cols = (V.without cols).drop k ↔ V.length - k ≤ t + 1) ∧
    (V.shownXlsx k t true cols = (V.without cols).drop k ↔
      V.length - k ≤ t + 2 * (k + (((V.without cols).drop k).takeWhile List.isEmpty).length) + 1) ∧
    (V.shownXlsb k t false cols = (V.without cols).drop k ↔ V.length ≤ k) ∧
    (V.shownXlsx k t false cols = (V.without cols).drop k ↔ V.length ≤ k) := by
  have hlen : ((V.without cols).drop k).length = V.length - k := by simp [VGrid.without]
  have hk' : k ≠ 0 := by omega
  refine ⟨?_, ?_, ?_, ?_⟩
  · rw [← hlen, ← take_eq_iff]
    simp [VGrid.shownXlsb, xlsbRows, hk']
  · rw [← hlen, ← take_eq_iff]
    simp [VGrid.shownXlsx, xlsxRows, hk', Nat.mul_add, Nat.add_assoc]
  · simp only [VGrid.shownXlsb, xlsbRows, if_neg hk', Bool.false_eq_true, if_false]
    rw [eq_comm, ← List.length_eq_zero_iff, hlen]
    omega
  · simp only [VGrid.shownXlsx, xlsxRows, if_neg hk', Bool.false_eq_true, if_false]
    rw [eq_comm, ← List.length_eq_zero_iff, hlen]
    omega

/-- Three rows after the first, with `take_rows` left at 0: XLSB gives one of them, XLSX all. -/
example : ∃ V : VGrid, V.length = 4 ∧ V.shownXlsb 1 0 true [] ≠ V.drop 1 ∧ V.shownXlsx 1 0 true [] = V.drop 1 :=
  ⟨[[(0, .str ['a'])], [(0, .str ['b'])], [(0, .str ['c'])], [(0, .str ['d'])]], rfl, by decide +kernel, by decide +kernel⟩

/-- The number of rows before the first one with a value. -/
def VGrid.leading (V : VGrid) : Nat := (V.takeWhile List.isEmpty).length

theorem take_eq_take_iff' {α : Type} (m n : Nat) (l : List α) : l.take m = l.take n ↔ min m l.length = min n l.length := by
  constructor
  · intro h
    have := congrArg List.length h
    simpa using this
  · intro h
    rw [List.take_eq_take_min (i := m), List.take_eq_take_min (i := n), h]

/-- C42: an XLSX sheet read with `take_rows_non_empty` and without limits gives all of its rows exactly when it begins
with a row with a value, or has at most `2 e + 1` rows, `e` of them before the first value. -/
theorem C42_exact (cols : List Int) (V : VGrid) :
    V.shownXlsx 0 0 true cols = V.without cols ↔
      VGrid.leading (V.without cols) = 0 ∨ V.length ≤ 2 * VGrid.leading (V.without cols) + 1 := by
  have hlen : (V.without cols).length = V.length := by simp [VGrid.without]
  rw [← hlen]
  simp only [VGrid.shownXlsx, xlsxRows, VGrid.leading, List.drop_zero, if_true]
  generalize V.without cols = W
  by_cases h : (W.takeWhile List.isEmpty).length = 0
  · simp [h]
  · rw [if_neg (by omega), take_eq_iff]
    omega

/-- C39: with `take_rows` `t` above 0 an XLSX sheet gives the first `t + 1` of the rows that it gives without it: always
without `take_rows_non_empty`; with it, exactly when it begins with a row with a value, or has at most `t + 1` rows and
at most `2 e + 1`, `e` of them before the first value. -/
theorem C39_exact (t : Nat) (ht : 0 < t) (cols : List Int) (V : VGrid) :
    V.shownXlsx 0 t false cols = (V.shownXlsx 0 0 false cols).take (t + 1) ∧
    (V.shownXlsx 0 t true cols = (V.shownXlsx 0 0 true cols).take (t + 1) ↔
      VGrid.leading (V.without cols) = 0 ∨
        (V.length ≤ t + 1 ∧ V.length ≤ 2 * VGrid.leading (V.without cols) + 1)) := by
  have hlen : (V.without cols).length = V.length := by simp [VGrid.without]
  rw [← hlen]
  simp only [VGrid.shownXlsx, xlsxRows, VGrid.leading, List.drop_zero, if_true]
  generalize V.without cols = W
  have ht' : t ≠ 0 := by omega
  have hpre : (W.takeWhile List.isEmpty).length ≤ W.length := (List.takeWhile_sublist _).length_le
  refine ⟨by simp [ht'], ?_⟩
  by_cases h : (W.takeWhile List.isEmpty).length = 0
  · simp [h, ht']
  · rw [if_neg (by omega), if_neg (by omega), List.take_take, take_eq_take_iff']
    omega

/-- A sheet with an empty row on top: of five rows three are given; with `take_rows=1`, four. -/
example : ∃ V : VGrid, V.length = 5 ∧ VGrid.leading V = 1 ∧ V.shownXlsx 0 0 true [] = V.take 3 ∧
    V.shownXlsx 0 1 true [] = V.take 4 :=
  ⟨[[], [(0, .str ['b'])], [(0, .str ['c'])], [(0, .str ['d'])], [(0, .str ['e'])]], rfl, by decide +kernel,
    by decide +kernel, by decide +kernel⟩

end Rxls
