import Verif.Lemmas.TakeOver
import Verif.Lemmas.ConcatTop
import Verif.Lemmas.Concat
import Verif.Spec.Held

/-! # chunk.take_over and the numbers of the runs -/

namespace Rxls

/-- A row of a run of some class. -/
def heldRow (k : Cls) (j : Nat) (v : Option Val) : Option (Nat × Option Val) := if k = .null then none else some (j, v)

/-- The rows of a run with its number. -/
abbrev inRun (k : Cls) (j : Nat) (vs : List (Option Val)) : List (Option (Nat × Option Val)) := vs.map (heldRow k j)

/-- The chunks stand for these rows, each chunk for one run; the numbers go up from `b`; chunk and number are in `P`. -/
inductive Tagged (P : Nat → Chunk → Prop) : Nat → List Chunk → List (Option (Nat × Option Val)) → Prop where
  | nil {b} : Tagged P b [] []
  | cons {b c cs k vs j rest} : c.Holds k vs → b ≤ j → P j c → Tagged P (j + 1) cs rest → Tagged P b (c :: cs) (inRun k j vs ++ rest)

theorem Denotes.null_vals {c : Chunk} {vs} (h : Denotes c .null vs) : vs = List.replicate vs.length none := by
  cases h; simp

theorem Tagged.mono {P} {b b' : Nat} {cs rows} (h : Tagged P b cs rows) (hb : b' ≤ b) : Tagged P b' cs rows := by
  cases h with
  | nil => exact .nil
  | cons h1 h2 h3 h4 => exact .cons h1 (by omega) h3 h4

theorem heldCells_inRun {c : Chunk} {k vs} (h : Denotes c k vs) (j : Nat) : heldCells (inRun k j vs) = vs := by
  rw [heldCells, List.map_map]
  by_cases hk : k = .null
  · subst hk
    have e := h.null_vals
    rw [e]
    simp [heldRow]
  · conv_rhs => rw [← List.map_id vs]
    apply List.map_congr_left
    intro x _
    simp [heldRow, hk]

theorem Tagged.column {P} {b : Nat} {cs rows} (h : Tagged P b cs rows) : Column cs (heldCells rows) := by
  induction h with
  | nil => exact .nil
  | @cons b c cs k vs j rest h1 _ _ _ ih =>
    rw [heldCells, List.map_append]
    refine .cons (k := k) ?_ ih
    have := heldCells_inRun h1.1 j
    rw [heldCells] at this
    rwa [this]

theorem Tagged.nulls {P} (hP : ∀ j, TakePred (P j)) {b : Nat} {cs rows} (h : Tagged P b cs rows) (n : Nat) :
    Tagged P b (cs ++ [Chunk.nulls n]) (rows ++ List.replicate n none) := by
  induction h with
  | @nil b =>
    have : Tagged P b [Chunk.nulls n] (inRun .null b (List.replicate n none) ++ []) :=
      .cons (k := .null) ⟨Denotes.null n n [], by simp [Chunk.nulls]⟩ (le_refl _) ((hP b).nulls n) .nil
    simpa [inRun, heldRow] using this
  | cons h1 h2 h3 _ ih => rw [List.append_assoc]; exact .cons h1 h2 h3 ih

theorem Tagged.keep {P} {b j : Nat} {t : Taken} {k vs cs rest} (h : t.1.Holds k vs) (hb : b ≤ j)
    (hp : P j t.1) (hr : Tagged P (j + 1) cs rest) : Tagged P b (takenChunks (keepTaken t) ++ cs) (inRun k j vs ++ rest) := by
  by_cases h0 : t.1.size = 0
  · have : vs = [] := by have := h.2; rw [h0] at this; exact List.length_eq_zero_iff.mp this.symm
    subst this
    simp only [takenChunks, keepTaken, h0, ne_eq, not_true_eq_false, if_false, List.map_nil, List.nil_append, inRun]
    exact hr.mono (by omega)
  · simp only [takenChunks, keepTaken, h0, ne_eq, not_false_eq_true, if_true, List.map_cons, List.map_nil,
      List.cons_append, List.nil_append]
    exact .cons h hb hp hr

theorem takeLoop_tagged {P} (hP : ∀ j, TakePred (P j)) (length : Int) (hl : 0 < length) : ∀ (chunks : List Chunk) (col : List (Option (Nat × Option Val)))
    (b i : Nat) (offset cum : Int), Tagged P b chunks col → 0 ≤ cum → cum < length →
    ∃ taken cum', takeLoop length chunks i offset cum = .ok (taken, cum') ∧
      Tagged P b (takenChunks taken) ((col.drop offset.toNat).take (length - cum).toNat) ∧
      ((cum' < length → cum' = cum + (col.drop offset.toNat).length) ∧
       (length ≤ cum' → length ≤ cum + (col.drop offset.toNat).length))
  | [], col, b, i, offset, cum, hc, h0, h1 => by
    cases hc
    refine ⟨[], cum, rfl, ?_, ?_⟩
    · simp; exact .nil
    · simp
  | c :: cs, col, b, i, offset, cum, hc, h0, h1 => by
    cases hc with
    | @cons _ _ _ k vs j rest hh hb hp hr =>
    have hsz := hh.2
    have htl : (inRun k j vs).length = vs.length := by simp
    by_cases hskip : 0 < offset ∧ (c.size : Int) ≤ offset
    · obtain ⟨t, cum', e, h2, h3⟩ := takeLoop_tagged hP length hl cs rest (j + 1) (i + 1) (offset - c.size) cum hr h0 h1
      have hd := drop_skip (inRun k j vs) rest offset (by omega)
      rw [hd, htl, ← hsz]
      refine ⟨t, cum', ?_, h2.mono (by omega), h3⟩
      rw [takeLoop, if_pos hskip]; exact e
    · rw [drop_head (inRun k j vs) rest offset (by omega)]
      obtain ⟨t1, e1, hh1⟩ := cutTop_spec c k vs hh i offset
      obtain ⟨t2, e2, hh2⟩ := cutBottom_spec t1 k _ hh1 length cum h1 hl
      have hp2 := cutBottom_pred (hP j) (cutTop_pred (hP j) hp e1) e2
      have hdr : (inRun k j vs).drop offset.toNat = inRun k j (vs.drop offset.toNat) := by simp [inRun, List.map_drop]
      rw [hdr]
      generalize hv1 : vs.drop offset.toNat = v1 at hh1 hh2
      have hs1 := hh1.2
      have ht1 : (inRun k j v1).length = v1.length := by simp
      have htk : ∀ n, (inRun k j v1).take n = inRun k j (v1.take n) := by intro n; simp [inRun, List.map_take]
      rw [takeLoop, if_neg hskip]
      simp only [e1, e2]
      by_cases hend : length ≤ cum + t1.1.size
      · rw [if_pos hend]
        refine ⟨_, _, rfl, ?_, by omega, by simp; omega⟩
        rw [List.take_append_of_le_length (by omega), htk]
        have := Tagged.keep hh2 hb hp2 (cs := []) (rest := []) .nil
        simpa using this
      · rw [if_neg hend]
        obtain ⟨t, cum', e, h2, h3⟩ := takeLoop_tagged hP length hl cs rest (j + 1) (i + 1)
          (if 0 < offset then 0 else offset) (cum + t1.1.size) hr (by omega) (by omega)
        have hoff : (if 0 < offset then 0 else offset).toNat = 0 := by split <;> omega
        rw [hoff, List.drop_zero] at h2 h3
        refine ⟨keepTaken t2 ++ t, cum', ?_, ?_, ?_⟩
        · rw [e]
        · have : ((inRun k j v1 ++ rest).take (length - cum).toNat)
              = inRun k j (v1.take (length - cum).toNat) ++ rest.take (length - (cum + t1.1.size)).toNat := by
            rw [List.take_append, htk]
            congr 2; omega
          rw [this]
          simp only [takenChunks, List.map_append]
          exact Tagged.keep hh2 hb hp2 h2
        · simp only [List.length_append]; push_cast; omega

theorem takeLoopIdx_tagged {P} (hP : ∀ j, TakePred (P j)) (index : List Bool) : ∀ (chunks : List Chunk) (col : List (Option (Nat × Option Val)))
    (b idxOff : Nat) (offset cum : Int), Tagged P b chunks col →
    ∃ taken cum', takeLoopIdx index chunks idxOff offset cum = .ok (taken, cum') ∧
      Tagged P b (takenChunks taken) (maskList (col.drop offset.toNat) (index.drop idxOff)) ∧
      cum' = cum + (maskList (col.drop offset.toNat) (index.drop idxOff)).length
  | [], col, b, idxOff, offset, cum, hc => by
    cases hc
    refine ⟨[], cum, rfl, ?_, ?_⟩
    · simp [maskList_nil]; exact .nil
    · simp [maskList_nil]
  | c :: cs, col, b, idxOff, offset, cum, hc => by
    cases hc with
    | @cons _ _ _ k vs j rest hh hb hp hr =>
    have hsz := hh.2
    have htl : (inRun k j vs).length = vs.length := by simp
    by_cases hskip : 0 < offset ∧ (c.size : Int) ≤ offset
    · obtain ⟨t, cum', e, h2, h3⟩ := takeLoopIdx_tagged hP index cs rest (j + 1) idxOff (offset - c.size) cum hr
      have hd := drop_skip (inRun k j vs) rest offset (by omega)
      rw [hd, htl, ← hsz]
      refine ⟨t, cum', ?_, h2.mono (by omega), h3⟩
      rw [takeLoopIdx, if_pos hskip]; exact e
    · rw [drop_head (inRun k j vs) rest offset (by omega)]
      obtain ⟨⟨c1, a1⟩, e1, hh1⟩ := cutTop_spec c k vs hh 0 offset
      have hdr : (inRun k j vs).drop offset.toNat = inRun k j (vs.drop offset.toNat) := by simp [inRun, List.map_drop]
      rw [hdr]
      generalize hv1 : vs.drop offset.toNat = v1 at hh1
      have hs1 : c1.size = v1.length := hh1.2
      have ht1 : (inRun k j v1).length = v1.length := by simp
      rw [takeLoopIdx, if_neg hskip]
      simp only [e1]
      rw [maskList_append, ht1]
      have hoff : (if 0 < offset then 0 else offset).toNat = 0 := by split <;> omega
      by_cases ht : trueCount ((index.drop idxOff).take c1.size) = 0
      · rw [if_pos ht]
        rw [← hs1, maskList_none (inRun k j v1) _ ht, List.nil_append]
        have := takeLoopIdx_tagged hP index cs rest (j + 1) (idxOff + c1.size) (if 0 < offset then 0 else offset) cum hr
        rw [hoff, List.drop_zero] at this
        rw [List.drop_drop]
        obtain ⟨t, cum', e, h2, h3⟩ := this
        exact ⟨t, cum', e, h2.mono (by omega), h3⟩
      · rw [if_neg ht]
        generalize hm : (index.drop idxOff).take c1.size = m at ht
        have hmne : m.length ≠ 0 := by
          intro h0
          have : m = [] := List.length_eq_zero_iff.mp h0
          subst this; exact ht rfl
        have hml : m.length ≤ v1.length := by rw [← hm, List.length_take, hs1]; omega
        obtain ⟨c2, e2, hh2, _⟩ := take_upto c1 k v1 hh1 m.length (by omega) (by omega)
        rw [Int.toNat_natCast] at hh2
        obtain ⟨it, e3, hh3, _⟩ := take_mask c2 k _ hh2 m (by rw [List.length_take]; omega)
        have hp3 := (hP j).take _ _ _ ((hP j).take _ _ _ (cutTop_pred (hP j) hp e1) e2) e3
        rw [← maskList_eq _ _ (by rw [List.length_take]; omega)] at hh3
        have hvm : maskList (v1.take m.length) m = maskList v1 m := by
          conv_rhs => rw [← List.take_append_drop m.length v1]
          rw [maskList_append]
          rw [List.length_take, min_eq_left hml, List.take_length, List.drop_length, maskList_nil',
            List.append_nil]
        rw [hvm] at hh3
        simp only [e2, e3]
        rw [← hs1, hm]
        have hmm : ∀ (l : List (Option Val)) (m : List Bool), maskList (inRun k j l) m = inRun k j (maskList l m) := by
          intro l
          induction l with
          | nil => intro m; simp [inRun, maskList_nil]
          | cons x l ih =>
            intro m
            cases m with
            | nil => simp [inRun, maskList_nil']
            | cons b m =>
              rw [show inRun k j (x :: l) = heldRow k j x :: inRun k j l from rfl, maskList_cons, maskList_cons, ih]
              cases b <;> simp
        rw [hmm]
        have := takeLoopIdx_tagged hP index cs rest (j + 1) (idxOff + c1.size) (if 0 < offset then 0 else offset)
          (if it.size ≠ 0 then cum + it.size else cum) hr
        rw [hoff, List.drop_zero] at this
        obtain ⟨t, cum', e, h2, h3⟩ := this
        refine ⟨keepTaken (it, none) ++ t, cum', ?_, ?_, ?_⟩
        · rw [e]
        · simp only [takenChunks, List.map_append, List.drop_drop]
          exact Tagged.keep (t := (it, none)) hh3 hb hp3 h2
        · have := hh3.2
          rw [h3, List.length_append, List.drop_drop, List.length_map]
          push_cast
          split <;> omega

theorem takeOver_tagged {P} (hP : ∀ j, TakePred (P j)) {b : Nat} {chunks : List Chunk} {col : List (Option (Nat × Option Val))} (h : Tagged P b chunks col)
    (off len : Nat) (m : Option (List Bool)) (hl : m = none → 0 < len) :
    ∃ t, takeOver chunks off len m = .ok t ∧ Tagged P b (takenChunks t) (pickRows col off len m) := by
  cases m with
  | none =>
    have hl := hl rfl
    obtain ⟨t, cum', e, h2, h3, h4⟩ := takeLoop_tagged hP len (by omega) chunks col b 0 off 0 h (le_refl _) (by omega)
    rw [Int.toNat_natCast] at h2 h3 h4
    rw [show ((len : Int) - 0).toNat = len by omega] at h2
    simp only [takeOver, e]
    refine ⟨_, rfl, ?_⟩
    rw [pickRows, window_eq]
    simp only [takenChunks, List.map_append]
    by_cases hp : (len : Int) ≠ 0 ∧ cum' < len
    · rw [if_pos hp]
      have := h3 hp.2
      rw [show ((len : Int) - cum').toNat = len - (col.drop off).length by omega]
      exact h2.nulls hP _
    · rw [if_neg hp]
      have := h4 (by omega)
      rw [show len - (col.drop off).length = 0 by omega]
      simpa using h2
  | some m =>
    by_cases h0 : trueCount m = 0
    · refine ⟨[], by simp [takeOver, h0], ?_⟩
      rw [pickRows, maskedRows_eq, maskList_none _ _ h0, h0]; exact .nil
    obtain ⟨t, cum', e, h2, h3⟩ := takeLoopIdx_tagged hP m chunks col b 0 off 0 h
    rw [Int.toNat_natCast, List.drop_zero] at h2 h3
    simp only [takeOver, h0, if_false, e]
    refine ⟨_, rfl, ?_⟩
    rw [pickRows, maskedRows_eq]
    simp only [takenChunks, List.map_append]
    by_cases hp : cum' < trueCount m
    · rw [if_pos hp]
      rw [show ((trueCount m : Int) - cum').toNat = trueCount m - (maskList (col.drop off) m).length by omega]
      exact h2.nulls hP _
    · rw [if_neg hp]
      rw [show trueCount m - (maskList (col.drop off) m).length = 0 by omega]
      simpa using h2

end Rxls
