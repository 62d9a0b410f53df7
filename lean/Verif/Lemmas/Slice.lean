import Verif.Spec.Chunk
import Mathlib.Data.List.Basic
import Mathlib.Tactic.Linarith
import Mathlib.Tactic.Ring
import Mathlib.Algebra.Order.Ring.Nat
import Mathlib.Data.Nat.Cast.Order.Ring

/-! # Slices and masks -/

namespace Rxls

/-! ## Number of multiples -/

theorem multiples_length (k : Nat) (hk : 0 < k) (m : Nat) :
    ((List.range m).filter (fun d => k ∣ d)).length = (m + k - 1) / k := by
  induction m with
  | zero => simp; exact (Nat.div_eq_of_lt (by omega)).symm
  | succ m ih =>
    rw [List.range_succ, List.filter_append, List.length_append, ih]
    have e : m + 1 + k - 1 = (m + k - 1) + 1 := by omega
    rw [e, Nat.succ_div]
    have e2 : m + k - 1 + 1 = m + k := by omega
    rw [e2]
    by_cases h : k ∣ m
    · simp [h]
    · simp [h]

theorem ceil_int (k m : Nat) (hk : 0 < k) :
    (m : Int) / k + (if (m : Int) % k ≠ 0 then 1 else 0) = ((m + k - 1) / k : Nat) := by
  have e : (m : Int) / k = ((m / k : Nat) : Int) := by norm_cast
  have e2 : (m : Int) % k = ((m % k : Nat) : Int) := by norm_cast
  rw [e, e2]
  have h := Nat.div_add_mod m k
  have hlt := Nat.mod_lt m hk
  by_cases hz : m % k = 0
  · rw [hz]
    have : (m + k - 1) / k = m / k := by
      rw [Nat.div_eq_iff hk]
      have : m / k * k = k * (m / k) := Nat.mul_comm _ _
      omega
    rw [this]; simp
  · have : (m + k - 1) / k = m / k + 1 := by
      rw [Nat.div_eq_iff hk, Nat.add_mul]
      have : m / k * k = k * (m / k) := Nat.mul_comm _ _
      omega
    rw [this]
    have hz' : ((m % k : Nat) : Int) ≠ 0 := by exact_mod_cast hz
    rw [if_pos hz']; push_cast; rfl

/-! ## everyNth -/

theorem everyNth_eq {α : Type} (k : Nat) (hk : 0 < k) : ∀ (j : Nat) (l : List α), j < k →
    everyNth k j l = (List.range l.length).filterMap (fun i => if i % k = j then l[i]? else none)
  | j, [], hj => by cases j <;> simp [everyNth]
  | 0, x :: xs, hj => by
    rw [everyNth, everyNth_eq k hk (k - 1) xs (by omega)]
    rw [List.length_cons, List.range_succ_eq_map, List.filterMap_cons, List.filterMap_map]
    simp only [Nat.zero_mod, ↓reduceIte, List.getElem?_cons_zero, List.cons.injEq, true_and]
    congr 1
    funext i
    simp only [Function.comp, Nat.succ_eq_add_one, List.getElem?_cons_succ]
    have : (i % k = k - 1) ↔ ((i + 1) % k = 0) := by
      rw [Nat.add_mod_eq_ite]
      have := Nat.mod_lt i hk
      by_cases h1 : k = 1
      · subst h1; simp [Nat.mod_one]
      · have h11 : 1 % k = 1 := Nat.mod_eq_of_lt (by omega)
        rw [h11]
        split <;> omega
    simp [this]
  | j + 1, x :: xs, hj => by
    rw [everyNth, everyNth_eq k hk j xs (by omega)]
    rw [List.length_cons, List.range_succ_eq_map, List.filterMap_cons, List.filterMap_map]
    have : (0 % k = j + 1) ↔ False := by simp
    simp only [this, if_false]
    congr 1
    funext i
    simp only [Function.comp, Nat.succ_eq_add_one, List.getElem?_cons_succ]
    have : (i % k = j) ↔ ((i + 1) % k = j + 1) := by
      rw [Nat.add_mod_eq_ite]
      have := Nat.mod_lt i hk
      have h11 : 1 % k = 1 := Nat.mod_eq_of_lt (by omega)
      rw [h11]
      split <;> omega
    simp [this]

theorem everyNth_zero {α : Type} (k : Nat) (hk : 0 < k) (l : List α) :
    everyNth k 0 l = ((List.range l.length).filter (fun d => k ∣ d)).filterMap (l[·]?) := by
  rw [everyNth_eq k hk 0 l hk, List.filterMap_filter]
  congr 1; funext i
  by_cases h : k ∣ i
  · simp [h, Nat.mod_eq_zero_of_dvd h]
  · have : ¬ i % k = 0 := fun e => h (Nat.dvd_of_mod_eq_zero e)
    simp [h, this]

theorem everyNth_one {α : Type} (l : List α) : everyNth 1 0 l = l := by
  induction l with
  | nil => rfl
  | cons x xs ih => rw [everyNth]; simpa using ih

theorem everyNth_map {α β : Type} (f : α → β) (k : Nat) : ∀ (j : Nat) (l : List α),
    everyNth k j (l.map f) = (everyNth k j l).map f
  | _, [] => by simp [everyNth]
  | 0, x :: xs => by simp [everyNth, everyNth_map f k]
  | j + 1, x :: xs => by simp [everyNth, everyNth_map f k]

theorem sliceBound_eq (n : Nat) (b : Option Int) (d : Nat) :
    sliceBound n b d = (b.map (clampUp n)).getD d := by
  cases b with
  | none => rfl
  | some i =>
    simp only [sliceBound, clampUp, Option.map_some, Option.getD_some]
    by_cases h : i < 0
    · rw [if_pos h, if_pos h]; omega
    · rw [if_neg h, if_neg h]; omega

theorem sliceBound_le (n : Nat) (b : Option Int) (d : Nat) (hd : d ≤ n) : sliceBound n b d ≤ n := by
  cases b with
  | none => exact hd
  | some i => simp only [sliceBound]; split <;> omega

theorem sliceList_map {α β : Type} (f : α → β) (l : List α) (s : PySlice) :
    sliceList (l.map f) s = (sliceList l s).map f := by
  simp only [sliceList, List.length_map, ← List.map_take, ← List.map_drop, everyNth_map]

/-- Python slicing, for a positive step. -/
theorem sliceList_eq {α : Type} (l : List α) (s : PySlice) (hs : ∀ k, s.step = some k → 0 < k) :
    sliceList l s = listSlice l s := by
  have hstep : 0 < s.step.getD 1 := by
    cases h : s.step with
    | none => simp
    | some k => simpa using hs k h
  have hk : 0 < (s.step.getD 1).toNat := by omega
  rw [sliceList, everyNth_zero _ hk, listSlice, pyIndices]
  simp only [hstep, if_true, ← sliceBound_eq]
  rw [List.filterMap_map]
  have hhi := sliceBound_le l.length s.stop l.length (le_refl _)
  rw [List.length_drop, List.length_take, min_eq_left hhi]
  apply List.filterMap_congr
  intro d hd
  rw [List.mem_filter, List.mem_range] at hd
  rw [Function.comp, List.getElem?_drop, List.getElem?_take]
  rw [if_pos (by omega)]

theorem listSlice_map {α β : Type} (f : α → β) (l : List α) (s : PySlice) :
    listSlice (l.map f) s = (listSlice l s).map f := by
  simp only [listSlice, List.length_map, List.map_filterMap, List.getElem?_map]

theorem listSlice_length {α : Type} (l : List α) (s : PySlice) (hs : ∀ k, s.step = some k → 0 < k) :
    (listSlice l s).length = (pyIndices l.length s).length := by
  have hstep : 0 < s.step.getD 1 := by
    cases h : s.step with
    | none => simp
    | some k => simpa using hs k h
  rw [listSlice, List.filterMap_length_eq_length.mpr]
  intro i hi
  simp only [pyIndices, hstep, if_true, ← sliceBound_eq] at hi
  have hhi := sliceBound_le l.length s.stop l.length (le_refl _)
  rw [List.mem_map] at hi
  obtain ⟨d, hd, rfl⟩ := hi
  rw [List.mem_filter, List.mem_range] at hd
  simp; omega

theorem orInt_some (i d : Int) : orInt (some i) d = if i = 0 then d else i := by
  by_cases h : i = 0
  · subst h; rfl
  · rw [if_neg h]; simp only [orInt]

/-- `null_slice` for a positive step, a stop that is not 0 and not beyond the end, and a start not
before the beginning. -/
theorem nullSlice_up (n : Nat) (s : PySlice) (hk : ∀ k, s.step = some k → 0 < k)
    (hstop : ∀ i, s.stop = some i → i ≠ 0 ∧ i ≤ n) (hstart : ∀ i, s.start = some i → -(n : Int) ≤ i) :
    nullSlice n s = (pyIndices n s).length := by
  have hstep : 0 < s.step.getD 1 := by
    cases h : s.step with
    | none => simp
    | some k => simpa using hk k h
  rw [pyIndices]
  simp only [hstep, if_true, List.length_map]
  rw [multiples_length _ (by omega)]
  rw [nullSlice]
  by_cases hn : n = 0
  · subst hn
    simp only [if_true]
    have : (Option.map (clampUp 0) s.stop).getD 0 = 0 := by
      rw [← sliceBound_eq]; have := sliceBound_le 0 s.stop 0 (le_refl _); omega
    rw [this, Nat.zero_sub]
    rw [Nat.div_eq_of_lt (by omega)]; rfl
  rw [if_neg hn]
  have hor : orInt s.step 1 = s.step.getD 1 := by
    cases h : s.step with
    | none => rfl
    | some k =>
      have := hk k h
      rw [orInt_some, if_neg (by omega)]; rfl
  rw [hor]
  have hneg : ¬ s.step.getD 1 < 0 := by omega
  simp only [hneg, if_false]
  -- the two bounds
  have hlo : ∃ lo : Int, (if orInt s.start 0 < 0 then (n : Int) + orInt s.start 0 else orInt s.start 0)
      = lo ∧ 0 ≤ lo ∧ (min lo n).toNat = (Option.map (clampUp n) s.start).getD 0 := by
    refine ⟨_, rfl, ?_, ?_⟩
    · cases h : s.start with
      | none => simp [orInt]
      | some i =>
        have := hstart i h
        rw [orInt_some]; split_ifs <;> omega
    · cases h : s.start with
      | none => simp [orInt]
      | some i =>
        have := hstart i h
        rw [orInt_some]
        simp only [Option.map_some, Option.getD_some, clampUp]
        split_ifs <;> omega
  have hhi : ∃ hi : Int, (if orInt s.stop n < 0 then (n : Int) + orInt s.stop n else orInt s.stop n)
      = hi ∧ hi ≤ n ∧ (max hi 0).toNat = (Option.map (clampUp n) s.stop).getD n := by
    refine ⟨_, rfl, ?_, ?_⟩
    · cases h : s.stop with
      | none => simp only [orInt]; split_ifs <;> omega
      | some i =>
        have := hstop i h
        rw [orInt_some]; split_ifs <;> omega
    · cases h : s.stop with
      | none => simp only [orInt, Option.map_none, Option.getD_none]; split_ifs <;> omega
      | some i =>
        have := hstop i h
        rw [orInt_some]
        simp only [Option.map_some, Option.getD_some, clampUp]
        split_ifs <;> omega
  obtain ⟨lo, elo, hlo0, hlo⟩ := hlo
  obtain ⟨hi, ehi, hhi0, hhi⟩ := hhi
  rw [elo, ehi, ← hlo, ← hhi]
  generalize hkk : s.step.getD 1 = k at hstep
  clear elo ehi hlo hhi hor hneg hkk
  have hz : (0 + k.toNat - 1) / k.toNat = 0 := Nat.div_eq_of_lt (by omega)
  by_cases h : hi ≤ lo
  · rw [if_pos h]
    have : (max hi 0).toNat - (min lo n).toNat = 0 := by omega
    rw [this, hz]; rfl
  · rw [if_neg h]
    have e : (max hi 0).toNat - (min lo n).toNat = (hi - lo).toNat := by omega
    rw [e, ← ceil_int _ _ (by omega)]
    have e1 : ((hi - lo).toNat : Int) = hi - lo := by omega
    have e2 : (k.toNat : Int) = k := by omega
    rw [e1, e2]

/-! ## Masks -/

theorem maskList_map {α β : Type} (f : α → β) (l : List α) (m : List Bool) :
    maskList (l.map f) m = (maskList l m).map f := by
  simp only [maskList, List.zip_map_left, List.filterMap_map, List.map_filterMap]
  congr 1; funext p
  simp only [Function.comp, Prod.map]
  cases p.2 <;> simp

theorem maskList_cons {α : Type} (x : α) (l : List α) (b : Bool) (m : List Bool) :
    maskList (x :: l) (b :: m) = if b then x :: maskList l m else maskList l m := by
  simp only [maskList, List.zip_cons_cons, List.filterMap_cons]
  cases b <;> simp

theorem maskList_length {α : Type} : ∀ (l : List α) (m : List Bool), l.length = m.length →
    (maskList l m).length = trueCount m
  | [], [], _ => rfl
  | x :: l, b :: m, h => by
    rw [maskList_cons]
    have := maskList_length l m (by simpa using h)
    cases b <;> simp [trueCount, this]

theorem maskList_eq {α : Type} : ∀ (l : List α) (m : List Bool), l.length = m.length →
    maskList l m = selectRows l m
  | [], [], _ => rfl
  | x :: l, b :: m, h => by
    rw [maskList_cons, maskList_eq l m (by simpa using h)]
    simp only [selectRows, List.length_cons, List.range_succ_eq_map, List.filter_cons,
      List.getElem?_cons_zero, List.filter_map, List.filterMap_cons, List.filterMap_map]
    cases b
    · simp [Function.comp_def, List.filterMap_map]
    · simp [Function.comp_def, List.filterMap_map]

theorem trueCount_append (a b : List Bool) : trueCount (a ++ b) = trueCount a + trueCount b := by
  simp [trueCount]

end Rxls
