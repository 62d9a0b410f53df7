import Verif.Lemmas.Chunk

/-! # chunk.take_over -/

namespace Rxls

/-- Chunks of a selection. -/
abbrev takenChunks (t : List Taken) : List Chunk := t.map (·.1)

theorem column_keep (t : Taken) (k vs) (h : t.1.Holds k vs) :
    Column (takenChunks (keepTaken t)) vs := by
  by_cases h0 : t.1.size = 0
  · have : vs = [] := by have := h.2; rw [h0] at this; exact List.length_eq_zero_iff.mp this.symm
    subst this
    simp [keepTaken, h0]; exact .nil
  · simp [keepTaken, h0]; exact Column.single h

theorem cutTop_spec (c : Chunk) (k vs) (h : c.Holds k vs) (i : Nat) (offset : Int) :
    ∃ t, cutTop c i offset = .ok t ∧ t.1.Holds k (vs.drop offset.toNat) := by
  by_cases ho : 0 < offset
  · obtain ⟨c', e, h2, _⟩ := take_from c k vs h offset ho
    exact ⟨(c', none), by simp [cutTop, ho, e], h2⟩
  · refine ⟨(c, some i), by simp [cutTop, ho], ?_⟩
    have : offset.toNat = 0 := by omega
    rw [this]; exact h

theorem cutBottom_spec (t : Taken) (k vs) (h : t.1.Holds k vs) (length cum : Int)
    (h0 : cum < length) (hl : 0 < length) :
    ∃ t', cutBottom t length (cum + t.1.size) = .ok t' ∧ t'.1.Holds k (vs.take (length - cum).toNat) := by
  have hsz := h.2
  by_cases hc : length ≠ 0 ∧ length < cum + t.1.size
  · obtain ⟨c', e, h2, _⟩ := take_upto t.1 k vs h (t.1.size + length - (cum + t.1.size)) (by omega) (by omega)
    refine ⟨(c', none), by rw [cutBottom, if_pos hc, e], ?_⟩
    rwa [show (length - cum).toNat = ((t.1.size : Int) + length - (cum + t.1.size)).toNat by omega]
  · refine ⟨t, by rw [cutBottom, if_neg hc], ?_⟩
    rwa [List.take_of_length_le (by omega)]

theorem drop_head {α : Type} (vs rest : List α) (o : Int) (h : ¬ (0 < o ∧ (vs.length : Int) ≤ o)) :
    (vs ++ rest).drop o.toNat = vs.drop o.toNat ++ rest := by
  by_cases ho : 0 < o
  · rw [List.drop_append_of_le_length (by omega)]
  · have : o.toNat = 0 := by omega
    rw [this]; rfl

theorem drop_skip {α : Type} (vs rest : List α) (o : Int) (h : 0 < o ∧ (vs.length : Int) ≤ o) :
    (vs ++ rest).drop o.toNat = rest.drop (o - vs.length).toNat := by
  rw [List.drop_append, List.drop_of_length_le (by omega), List.nil_append]
  congr 1; omega

theorem takeLoop_spec (length : Int) (hl : 0 < length) : ∀ (chunks : List Chunk) (col : List (Option Val))
    (i : Nat) (offset cum : Int), Column chunks col → 0 ≤ cum → cum < length →
    ∃ taken cum', takeLoop length chunks i offset cum = .ok (taken, cum') ∧
      Column (takenChunks taken) ((col.drop offset.toNat).take (length - cum).toNat) ∧
      ((cum' < length → cum' = cum + (col.drop offset.toNat).length) ∧
       (length ≤ cum' → length ≤ cum + (col.drop offset.toNat).length))
  | [], col, i, offset, cum, hc, h0, h1 => by
    cases hc
    refine ⟨[], cum, rfl, ?_, ?_⟩
    · simp; exact .nil
    · simp
  | c :: cs, col, i, offset, cum, hc, h0, h1 => by
    cases hc with
    | @cons _ _ k vs rest hh hr =>
    have hsz := hh.2
    by_cases hskip : 0 < offset ∧ (c.size : Int) ≤ offset
    · obtain ⟨t, cum', e, h2, h3⟩ := takeLoop_spec length hl cs rest (i + 1) (offset - c.size) cum hr h0 h1
      have hd := drop_skip vs rest offset (by omega)
      rw [hd, ← hsz]
      refine ⟨t, cum', ?_, h2, h3⟩
      rw [takeLoop, if_pos hskip]; exact e
    · rw [drop_head vs rest offset (by omega)]
      obtain ⟨t1, e1, hh1⟩ := cutTop_spec c k vs hh i offset
      obtain ⟨t2, e2, hh2⟩ := cutBottom_spec t1 k _ hh1 length cum h1 hl
      generalize hv1 : vs.drop offset.toNat = v1 at hh1 hh2
      have hs1 := hh1.2
      have hk := column_keep t2 k _ hh2
      rw [takeLoop, if_neg hskip]
      simp only [e1, e2]
      by_cases hend : length ≤ cum + t1.1.size
      · rw [if_pos hend]
        refine ⟨_, _, rfl, ?_, by omega, by simp; omega⟩
        rwa [List.take_append_of_le_length (by omega)]
      · rw [if_neg hend]
        obtain ⟨t, cum', e, h2, h3⟩ := takeLoop_spec length hl cs rest (i + 1)
          (if 0 < offset then 0 else offset) (cum + t1.1.size) hr (by omega) (by omega)
        have hoff : (if 0 < offset then 0 else offset).toNat = 0 := by split <;> omega
        rw [hoff, List.drop_zero] at h2 h3
        refine ⟨keepTaken t2 ++ t, cum', ?_, ?_, ?_⟩
        · rw [e]
        · have : ((v1 ++ rest).take (length - cum).toNat)
              = v1.take (length - cum).toNat ++ rest.take (length - (cum + t1.1.size)).toNat := by
            rw [List.take_append]
            congr 2; omega
          rw [this]
          simp only [takenChunks, List.map_append]
          exact hk.append h2
        · simp only [List.length_append]; push_cast; omega

/-- With no length, the loop stops after the chunk that contains row `offset`. -/
theorem takeLoop_zero (pre : List Chunk) (c : Chunk) (post : List Chunk)
    (u v : List (Option Val)) (k : Cls) (hp : Column pre u) (hne : ∀ d ∈ pre, d.size ≠ 0)
    (hh : c.Holds k v) (offset : Nat) (h1 : u.length ≤ offset)
    (h2 : offset < u.length + v.length) (i : Nat) :
    ∃ taken cum', takeLoop 0 (pre ++ c :: post) i offset 0 = .ok (taken, cum') ∧
      Column (takenChunks taken) (v.drop (offset - u.length)) := by
  induction hp generalizing offset i with
  | nil =>
    simp only [List.nil_append, List.length_nil, Nat.sub_zero, Nat.zero_add] at *
    have hsz := hh.2
    have hskip : ¬ (0 < (offset : Int) ∧ (c.size : Int) ≤ offset) := by omega
    obtain ⟨t, e, hh'⟩ := cutTop_spec c k v hh i offset
    rw [takeLoop, if_neg hskip]
    have h0 : (0 : Int) ≤ 0 + t.1.size := by omega
    simp only [e, cutBottom, ne_eq, not_true_eq_false, false_and, if_false, h0, if_true]
    rw [Int.toNat_natCast] at hh'
    exact ⟨_, _, rfl, column_keep t k _ hh'⟩
  | @cons d ds k' vs rest hd hr ih =>
    rw [List.cons_append]
    have hsz := hd.2
    have hdz := hne d (by simp)
    rw [List.length_append] at h1 h2
    obtain ⟨t, cum', e, h3⟩ := ih (fun x hx => hne x (by simp [hx])) (offset - d.size) (by omega) (by omega) (i + 1)
    refine ⟨t, cum', ?_, ?_⟩
    · rw [takeLoop, if_pos (by omega)]
      rw [show ((offset : Int) - d.size) = ((offset - d.size : Nat) : Int) by omega]
      exact e
    · rw [List.length_append]
      rwa [show offset - (vs.length + rest.length) = offset - d.size - rest.length by omega]

/-! ## Masks -/

theorem maskList_nil {α : Type} (m : List Bool) : maskList ([] : List α) m = [] := by simp [maskList]
theorem maskList_nil' {α : Type} (l : List α) : maskList l [] = [] := by simp [maskList]

theorem maskList_take {α : Type} (l : List α) (m : List Bool) :
    maskList l (m.take l.length) = maskList l m := by
  induction l generalizing m with
  | nil => simp [maskList]
  | cons x l ih =>
    cases m with
    | nil => simp
    | cons b m => rw [List.length_cons, List.take_succ_cons, maskList_cons, maskList_cons, ih]

theorem maskList_append {α : Type} (l l' : List α) (m : List Bool) :
    maskList (l ++ l') m = maskList l (m.take l.length) ++ maskList l' (m.drop l.length) := by
  induction l generalizing m with
  | nil => simp [maskList_nil]
  | cons x l ih =>
    cases m with
    | nil => simp [maskList_nil']
    | cons b m =>
      rw [List.cons_append, List.length_cons, List.take_succ_cons, List.drop_succ_cons, maskList_cons,
        maskList_cons, ih]
      cases b <;> simp

theorem maskList_none {α : Type} (l : List α) (m : List Bool) (h : trueCount m = 0) : maskList l m = [] := by
  rw [maskList, List.filterMap_eq_nil_iff]
  intro p hp
  have := (List.of_mem_zip hp).2
  simp only [trueCount, List.length_eq_zero_iff, List.filter_eq_nil_iff] at h
  have := h p.2 this
  simp at this
  simp [this]

theorem takeLoopIdx_spec (index : List Bool) : ∀ (chunks : List Chunk) (col : List (Option Val))
    (idxOff : Nat) (offset cum : Int), Column chunks col →
    ∃ taken cum', takeLoopIdx index chunks idxOff offset cum = .ok (taken, cum') ∧
      Column (takenChunks taken) (maskList (col.drop offset.toNat) (index.drop idxOff)) ∧
      cum' = cum + (maskList (col.drop offset.toNat) (index.drop idxOff)).length
  | [], col, idxOff, offset, cum, hc => by
    cases hc
    refine ⟨[], cum, rfl, ?_, ?_⟩
    · simp [maskList_nil]; exact .nil
    · simp [maskList_nil]
  | c :: cs, col, idxOff, offset, cum, hc => by
    cases hc with
    | @cons _ _ k vs rest hh hr =>
    have hsz := hh.2
    by_cases hskip : 0 < offset ∧ (c.size : Int) ≤ offset
    · obtain ⟨t, cum', e, h2, h3⟩ := takeLoopIdx_spec index cs rest idxOff (offset - c.size) cum hr
      have hd := drop_skip vs rest offset (by omega)
      rw [hd, ← hsz]
      refine ⟨t, cum', ?_, h2, h3⟩
      rw [takeLoopIdx, if_pos hskip]; exact e
    · rw [drop_head vs rest offset (by omega)]
      obtain ⟨⟨c1, a1⟩, e1, hh1⟩ := cutTop_spec c k vs hh 0 offset
      generalize hv1 : vs.drop offset.toNat = v1 at hh1
      have hs1 : c1.size = v1.length := hh1.2
      rw [takeLoopIdx, if_neg hskip]
      simp only [e1]
      rw [maskList_append]
      have hoff : (if 0 < offset then 0 else offset).toNat = 0 := by split <;> omega
      by_cases ht : trueCount ((index.drop idxOff).take c1.size) = 0
      · rw [if_pos ht]
        rw [← hs1, maskList_none v1 _ ht, List.nil_append]
        have := takeLoopIdx_spec index cs rest (idxOff + c1.size) (if 0 < offset then 0 else offset) cum hr
        rw [hoff, List.drop_zero] at this
        rwa [List.drop_drop]
      · rw [if_neg ht]
        generalize hm : (index.drop idxOff).take c1.size = m at ht
        have hmne : m.length ≠ 0 := by
          intro h0
          have : m = [] := List.length_eq_zero_iff.mp h0
          subst this; exact ht rfl
        have hml : m.length ≤ v1.length := by rw [← hm, List.length_take, hs1]; omega
        obtain ⟨c2, e2, hh2, _⟩ := take_upto c1 k v1 hh1 m.length (by omega) (by omega)
        rw [Int.toNat_natCast] at hh2
        obtain ⟨it, e3, hh3, _⟩ := take_mask c2 k _ hh2 m (by rw [List.length_take]; omega)
        rw [← maskList_eq _ _ (by rw [List.length_take]; omega)] at hh3
        have hvm : maskList (v1.take m.length) m = maskList v1 m := by
          conv_rhs => rw [← List.take_append_drop m.length v1]
          rw [maskList_append]
          rw [List.length_take, min_eq_left hml, List.take_length, List.drop_length, maskList_nil',
            List.append_nil]
        rw [hvm] at hh3
        simp only [e2, e3]
        have hk := column_keep (it, none) k _ hh3
        rw [← hs1, hm]
        have := takeLoopIdx_spec index cs rest (idxOff + c1.size) (if 0 < offset then 0 else offset)
          (if it.size ≠ 0 then cum + it.size else cum) hr
        rw [hoff, List.drop_zero] at this
        obtain ⟨t, cum', e, h2, h3⟩ := this
        refine ⟨keepTaken (it, none) ++ t, cum', ?_, ?_, ?_⟩
        · rw [e]
        · simp only [takenChunks, List.map_append, List.drop_drop]
          exact hk.append h2
        · have := hh3.2
          rw [h3, List.length_append, List.drop_drop]
          push_cast
          split <;> omega

/-! ## Windows -/

theorem window_eq {α : Type} (col : List (Option α)) (off len : Nat) :
    window col off len = (col.drop off).take len ++
      List.replicate (len - (col.drop off).length) none := by
  apply List.ext_getElem?
  intro i
  simp only [window, cellAt, List.getElem?_map]
  by_cases hi : i < len
  · rw [List.getElem?_range hi]
    simp only [Option.map_some, List.getElem?_append, List.length_take, List.getElem?_take, List.getElem?_drop,
      List.getElem?_replicate]
    by_cases h2 : i < (col.drop off).length
    · rw [if_pos (by omega), if_pos hi]
      rw [List.length_drop] at h2
      rw [List.getElem?_eq_getElem (by omega)]; rfl
    · rw [if_neg (by omega)]
      rw [if_pos (by omega)]
      rw [List.length_drop] at h2
      rw [List.getElem?_eq_none (by omega)]; rfl
  · rw [List.getElem?_eq_none (by simp; omega), List.getElem?_eq_none (by simp; omega)]; rfl

theorem maskedRows_eq {α : Type} (col : List (Option α)) (off : Nat) (m : List Bool) :
    maskedRows col off m = maskList (col.drop off) m ++
      List.replicate (trueCount m - (maskList (col.drop off) m).length) none := by
  have key : ∀ (m : List Bool) (l : List (Option α)),
      ((List.range m.length).filter (fun i => m[i]? = some true)).map (fun i => (l[i]?).join)
        = maskList l m ++ List.replicate (trueCount m - (maskList l m).length) none := by
    intro m
    induction m with
    | nil => intro l; simp [maskList_nil', trueCount]
    | cons b m ih =>
      intro l
      rw [List.length_cons, List.range_succ_eq_map, List.filter_cons, List.filter_map]
      cases l with
      | nil =>
        have := ih []
        simp only [maskList_nil, List.length_nil, Nat.sub_zero, List.nil_append] at this ⊢
        cases b
        · simp [trueCount, Function.comp_def] at this ⊢; exact this
        · simp [trueCount, Function.comp_def, List.replicate_succ] at this ⊢; exact this
      | cons x l =>
        have := ih l
        rw [maskList_cons]
        cases b
        · simp [trueCount, Function.comp_def] at this ⊢; exact this
        · simp [trueCount, Function.comp_def] at this ⊢; exact this
  rw [maskedRows, ← key]
  apply List.map_congr_left
  intro i _
  simp [cellAt, List.getElem?_drop]

theorem takeOver_window (chunks : List Chunk) (col : List (Option Val)) (h : Column chunks col)
    (off len : Nat) (hl : 0 < len) :
    ∃ t, takeOver chunks off len none = .ok t ∧ Column (takenChunks t) (window col off len) := by
  obtain ⟨t, cum', e, h2, h3, h4⟩ := takeLoop_spec len (by omega) chunks col 0 off 0 h (le_refl _) (by omega)
  rw [Int.toNat_natCast] at h2 h3 h4
  rw [show ((len : Int) - 0).toNat = len by omega] at h2
  simp only [takeOver, e]
  refine ⟨_, rfl, ?_⟩
  rw [window_eq]
  simp only [takenChunks, List.map_append]
  refine h2.append ?_
  by_cases hp : (len : Int) ≠ 0 ∧ cum' < len
  · rw [if_pos hp]
    have := h3 hp.2
    rw [show ((len : Int) - cum').toNat = len - (col.drop off).length by omega]
    exact Column.nulls _
  · rw [if_neg hp]
    have := h4 (by omega)
    rw [show len - (col.drop off).length = 0 by omega]
    exact .nil

theorem takeOver_mask (chunks : List Chunk) (col : List (Option Val)) (h : Column chunks col)
    (off : Nat) (length : Int) (m : List Bool) :
    ∃ t, takeOver chunks off length (some m) = .ok t ∧ Column (takenChunks t) (maskedRows col off m) := by
  by_cases h0 : trueCount m = 0
  · refine ⟨[], by simp [takeOver, h0], ?_⟩
    rw [maskedRows_eq, maskList_none _ _ h0, h0]; exact .nil
  obtain ⟨t, cum', e, h2, h3⟩ := takeLoopIdx_spec m chunks col 0 off 0 h
  rw [Int.toNat_natCast, List.drop_zero] at h2 h3
  simp only [takeOver, h0, if_false, e]
  refine ⟨_, rfl, ?_⟩
  rw [maskedRows_eq]
  simp only [takenChunks, List.map_append]
  refine h2.append ?_
  by_cases hp : cum' < trueCount m
  · rw [if_pos hp]
    rw [show ((trueCount m : Int) - cum').toNat = trueCount m - (maskList (col.drop off) m).length by omega]
    exact Column.nulls _
  · rw [if_neg hp]
    rw [show trueCount m - (maskList (col.drop off) m).length = 0 by omega]
    exact .nil

end Rxls
