import Verif.Spec.Read

/-! # Header names -/

namespace Rxls

/-- The filled cell at row `i` after the columns `pre`. -/
def fillFrom (pre : List (List (Option Str))) (i : Nat) : Option Str :=
  match pre.reverse.find? fun col => (col.take (i + 1)).any Option.isSome with
  | some col => (col[i]?).join
  | none => none

theorem fillFrom_snoc (pre : List (List (Option Str))) (c : List (Option Str)) (i : Nat) :
    fillFrom (pre ++ [c]) i = if (c.take (i + 1)).any Option.isSome then (c[i]?).join else fillFrom pre i := by
  unfold fillFrom
  rw [List.reverse_append, List.reverse_singleton, List.singleton_append, List.find?_cons]
  cases h : (c.take (i + 1)).any Option.isSome <;> simp

theorem any_take_top {c : List (Option Str)} {t : Nat} (h : c.findIdx? Option.isSome = some t) (i : Nat) :
    (c.take (i + 1)).any Option.isSome = decide (t ≤ i) := by
  rw [List.findIdx?_eq_some_iff_getElem] at h
  obtain ⟨hl, h1, h2⟩ := h
  by_cases hti : t ≤ i
  · rw [decide_eq_true hti, List.any_eq_true]
    exact ⟨c[t], List.mem_take_iff_getElem.mpr ⟨t, by omega, rfl⟩, h1⟩
  · rw [decide_eq_false hti, List.any_eq_false]
    intro x hx
    obtain ⟨j, hj, rfl⟩ := List.mem_take_iff_getElem.mp hx
    exact h2 j (by omega)

theorem joinWith_intercalate (sep : Str) (l : List Str) : joinWith sep l = sep.intercalate l := by
  induction l with
  | nil => rfl
  | cons s l ih =>
    cases l with
    | nil => simp [joinWith, List.intercalate]
    | cons t l => rw [joinWith, ih]; simp [List.intercalate, List.append_assoc]

theorem joinParts_eq (l : List (Option Str)) : joinParts l = commaJoin l := by
  unfold joinParts commaJoin
  rw [joinWith_intercalate]
  have h : l.filterMap nonEmptyText = l.reduceOption.filter (· ≠ []) := by
    induction l with
    | nil => rfl
    | cons x l ih =>
      rcases x with _ | (_ | ⟨c, s⟩)
      · rw [List.reduceOption_cons_of_none, ← ih]; rfl
      · rw [List.reduceOption_cons_of_some, List.filter_cons_of_neg (by simp), ← ih]; rfl
      · rw [List.reduceOption_cons_of_some, List.filter_cons_of_pos (by simp), ← ih]; rfl
  rw [h]
  have hne : ∀ x ∈ l.reduceOption.filter (· ≠ []), x ≠ [] := by
    intro x hx
    simpa using (List.mem_filter.mp hx).2
  cases hl : l.reduceOption.filter (· ≠ []) with
  | nil => rfl
  | cons a t =>
    rw [hl] at hne
    have ha := hne a (by simp)
    cases a with
    | nil => exact absurd rfl ha
    | cons c s => cases t <;> simp [List.intercalate, orUnnamed]

theorem headerLoop_spec (n : Nat) : ∀ (rest pre : List (List (Option Str))) (prev : List (Option Str)),
    (∀ c ∈ rest, c.length = n) →
    ((prev = [] ∧ ∀ c ∈ pre, c.any Option.isSome = false) ∨ (0 < n ∧ prev = (List.range n).map (fillFrom pre))) →
    headerLoop prev rest =
      (List.range rest.length).map fun j => headName (pre ++ rest) n (pre.length + j)
  | [], pre, prev, _, _ => rfl
  | c :: rest, pre, prev, hl, hp => by
    have hlc : c.length = n := hl c (by simp)
    have hget : (pre ++ c :: rest).getD pre.length [] = c := by simp [List.getD]
    have htake : (pre ++ c :: rest).take (pre.length + 1) = pre ++ [c] := by
      rw [List.take_append, List.take_of_length_le (by omega)]
      simp
    have hfill : ∀ i, filledCell (pre ++ c :: rest) pre.length i = fillFrom (pre ++ [c]) i := by
      intro i; unfold filledCell fillFrom; rw [htake]; rfl
    have happ : pre ++ c :: rest = (pre ++ [c]) ++ rest := by simp
    rw [headerLoop]
    rw [List.length_cons, List.range_succ_eq_map, List.map_cons, List.map_map, Nat.add_zero]
    have hrec : ∀ q, ((q = [] ∧ ∀ x ∈ pre ++ [c], x.any Option.isSome = false) ∨
        (0 < n ∧ q = (List.range n).map (fillFrom (pre ++ [c])))) →
        headerLoop q rest = (List.range rest.length).map
          ((fun j => headName (pre ++ c :: rest) n (pre.length + j)) ∘ Nat.succ) := by
      intro q hq
      rw [headerLoop_spec n rest (pre ++ [c]) q (fun x hx => hl x (by simp [hx])) hq]
      apply List.map_congr_left
      intro j _
      simp only [Function.comp, ← happ, List.length_append, List.length_singleton]
      congr 1
      omega
    cases ht : c.findIdx? Option.isSome with
    | none =>
      simp only
      have hnone : c.any Option.isSome = false := by
        rw [List.findIdx?_eq_none_iff] at ht
        rw [List.any_eq_false]
        intro x hx
        simp [ht x hx]
      have hno : ∀ i, (c.take (i + 1)).any Option.isSome = false := by
        intro i
        rw [List.any_eq_false] at hnone ⊢
        exact fun x hx => hnone x (List.mem_of_mem_take hx)
      congr 1
      · unfold headName; rw [hget, hnone]; rfl
      · refine hrec prev ?_
        rcases hp with ⟨h1, h2⟩ | ⟨h0, h1⟩
        · left
          refine ⟨h1, fun x hx => ?_⟩
          rcases List.mem_append.mp hx with hx | hx
          · exact h2 x hx
          · rw [List.mem_singleton.mp hx]; exact hnone
        · right
          refine ⟨h0, h1.trans ?_⟩
          apply List.map_congr_left
          intro i _
          rw [fillFrom_snoc, hno]; rfl
    | some t =>
      simp only
      have ht' := ht
      rw [List.findIdx?_eq_some_iff_getElem] at ht'
      obtain ⟨htl, ht1, ht2⟩ := ht'
      have hsome : c.any Option.isSome = true := by
        rw [List.any_eq_true]
        exact ⟨c[t], List.getElem_mem htl, ht1⟩
      have hparts : prev.take t ++ c.drop (min t prev.length) =
          (List.range n).map (fillFrom (pre ++ [c])) := by
        apply List.ext_getElem?
        intro i
        rw [List.getElem?_map]
        by_cases hi : i < n
        · rw [List.getElem?_range hi, Option.map_some, fillFrom_snoc, any_take_top ht]
          have hci : c[i]? = some c[i] := List.getElem?_eq_getElem (by omega)
          rcases hp with ⟨h1, h2⟩ | ⟨h0, h1⟩
          · rw [h1]
            simp only [List.take_nil, List.length_nil, Nat.min_zero, List.drop_zero, List.nil_append]
            by_cases hti : t ≤ i
            · simp [hti, hci]
            · have hf : fillFrom pre i = none := by
                unfold fillFrom
                have : (pre.reverse.find? fun col => (col.take (i + 1)).any Option.isSome) = none := by
                  rw [List.find?_eq_none]
                  intro x hx
                  have := h2 x (List.mem_reverse.mp hx)
                  rw [List.any_eq_false] at this
                  simp only [Bool.not_eq_true, List.any_eq_false]
                  intro y hy
                  simpa using this y (List.mem_of_mem_take hy)
                rw [this]
              have : c[i] = none := by
                have := ht2 i (by omega)
                simpa using this
              simp [hti, hf, hci, this]
          · have hmt : min t prev.length = t := by rw [h1]; simp; omega
            rw [hmt]
            by_cases hti : t ≤ i
            · rw [List.getElem?_append_right (by simp; omega), List.getElem?_drop]
              have : (prev.take t).length = t := by rw [List.length_take, h1]; simp; omega
              rw [this, show t + (i - t) = i by omega]
              simp [hti, hci]
            · have : i < (prev.take t).length := by rw [List.length_take, h1]; simp; omega
              rw [List.getElem?_append_left this, List.getElem?_take, if_pos (by omega), h1,
                List.getElem?_map, List.getElem?_range hi]
              simp [hti]
        · have h1 : (List.range n)[i]? = none := List.getElem?_eq_none (by simp; omega)
          rw [h1, Option.map_none]
          apply List.getElem?_eq_none
          rcases hp with ⟨h1, h2⟩ | ⟨h0, h1⟩
          · rw [h1]; simp; omega
          · rw [List.length_append, List.length_take, List.length_drop, h1]; simp; omega
      congr 1
      · rw [hparts, joinParts_eq]
        unfold headName
        rw [hget, hsome, if_pos rfl]
        congr 1
        apply List.map_congr_left
        intro i _
        exact (hfill i).symm
      · exact hrec _ (.inr ⟨by omega, hparts⟩)

theorem headerLoop_names (n : Nat) (H : List (List (Option Str))) (h : ∀ c ∈ H, c.length = n) :
    headerLoop [] H = (List.range H.length).map (headName H n) := by
  rw [headerLoop_spec n H [] [] h (.inl ⟨rfl, by simp⟩)]
  simp

theorem orUnnamed_names (H : List (List (Option Str))) (h : ∀ c ∈ H, c.length = 1) :
    (H.map fun c => orUnnamed (c[0]?).join) = (List.range H.length).map (headName H 1) := by
  apply List.ext_getElem
  · simp
  intro j h1 h2
  simp only [List.length_map] at h1
  rw [List.getElem_map, List.getElem_map, List.getElem_range]
  have hl := h H[j] (List.getElem_mem h1)
  have htake : (H.take (j + 1)).reverse = H[j] :: (H.take j).reverse := by
    rw [List.take_succ_eq_append_getElem h1, List.reverse_append]; rfl
  obtain ⟨x, hx⟩ := List.length_eq_one_iff.mp hl
  unfold headName
  rw [show H.getD j [] = H[j] by simp [List.getD, h1], hx]
  simp only [List.getElem?_cons_zero, Option.join_some, List.any_cons, List.any_nil, Bool.or_false]
  cases x with
  | none => rfl
  | some s =>
    simp only [Option.isSome_some, if_true]
    have : filledCell H j 0 = some s := by
      unfold filledCell
      rw [htake, hx]
      rfl
    rw [show List.range 1 = [0] from rfl, List.map_singleton, this]
    cases s with
    | nil => rfl
    | cons c s => simp [commaJoin, orUnnamed, List.reduceOption, List.intercalate]

end Rxls
