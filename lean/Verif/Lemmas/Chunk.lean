import Verif.Lemmas.Slice

/-! # chunk.take and chunk.take_over -/

namespace Rxls

theorem listSlice_replicate {α : Type} (n : Nat) (a : α) (s : PySlice)
    (hs : ∀ k, s.step = some k → 0 < k) :
    listSlice (List.replicate n a) s = List.replicate (pyIndices n s).length a := by
  rw [List.eq_replicate_iff]
  constructor
  · rw [listSlice_length _ _ hs, List.length_replicate]
  · intro b hb
    rw [listSlice, List.mem_filterMap] at hb
    obtain ⟨i, _, h⟩ := hb
    rw [List.getElem?_eq_some_iff] at h
    obtain ⟨_, h⟩ := h
    simpa using h.symm

theorem selectRows_replicate {α : Type} (m : List Bool) (a : α) :
    selectRows (List.replicate m.length a) m = List.replicate (trueCount m) a := by
  rw [← maskList_eq _ _ (by simp), List.eq_replicate_iff]
  constructor
  · rw [maskList_length _ _ (by simp)]
  · intro b hb
    rw [maskList, List.mem_filterMap] at hb
    obtain ⟨p, hp, h⟩ := hb
    have := (List.of_mem_zip hp).1
    rw [List.mem_replicate] at this
    split at h
    · injection h with h; rw [← h]; exact this.2
    · exact absurd h (by simp)

theorem selectRows_map {α β : Type} (f : α → β) (l : List α) (m : List Bool) :
    selectRows (l.map f) m = (selectRows l m).map f := by
  simp only [selectRows, List.map_filterMap, List.getElem?_map]

/-- A selection that acts by position. -/
structure Sel where
  f : ∀ {α : Type}, List α → List α
  nat : ∀ {α β : Type} (g : α → β) (l : List α), f (l.map g) = (f l).map g

def sliceSel (s : PySlice) : Sel := ⟨fun l => listSlice l s, fun g l => listSlice_map g l s⟩
def maskSel (m : List Bool) : Sel := ⟨fun l => selectRows l m, fun g l => selectRows_map g l m⟩

/-- `take` on a non-null chunk is its selection on the cells. -/
theorem take_sel (c : Chunk) (k : Cls) (vs : List (Option Val)) (h : Denotes c k vs) (hk : k ≠ .null)
    (ix : TakeIdx) (S : Sel)
    (hsel : ∀ {α : Type} (e : PyErr) (l : List α), l.length = vs.length → selectList e l ix = .ok (S.f l)) :
    ∃ c', c.take ix = .ok c' ∧ c'.Holds k (S.f vs) ∧ c'.typ = c.typ := by
  cases h with
  | null n sz sr => exact absurd rfl hk
  | str l sz sr =>
    refine ⟨⟨.strs (S.f l), 0x18, (S.f l).length, sr⟩, ?_, ⟨?_, ?_⟩, rfl⟩
    · simp [Chunk.take, hasBit, TYPE_STRING, hsel .arrowInvalid l (by simp), bind, Except.bind]
    · rw [S.nat]; exact .str _ _ _
    · rw [S.nat]; simp
  | shared l sz sr vs h =>
    have hl : l.length = vs.length := by simpa using congrArg List.length h
    refine ⟨⟨.idx (S.f l), 0x11, (S.f l).length, sr⟩, ?_, ⟨?_, ?_⟩, rfl⟩
    · simp [Chunk.take, hasBit, TYPE_STRING, hsel .arrowInvalid l (by simpa using hl), bind, Except.bind]
    · rw [S.nat]; exact .shared _ _ _ _ (by rw [← S.nat, h, S.nat])
    · rw [S.nat]
      have : (S.f l).length = (S.f vs).length := by
        have := congrArg List.length (congrArg S.f h)
        simpa [S.nat] using this
      simpa using this
  | num l t sz sr h =>
    refine ⟨⟨.f8 (S.f l), t, (S.f l).length, sr⟩, ?_, ⟨?_, ?_⟩, rfl⟩
    · rcases h with rfl | rfl <;>
      simp [Chunk.take, hasBit, TYPE_STRING, hsel .indexError l (by simp), bind, Except.bind]
    · rw [S.nat]; exact .num _ _ _ _ h
    · rw [S.nat]; simp
  | rk l sz sr =>
    refine ⟨⟨.u32 (S.f l), 0x21, (S.f l).length, sr⟩, ?_, ⟨?_, ?_⟩, rfl⟩
    · simp [Chunk.take, hasBit, TYPE_STRING, hsel .indexError l (by simp), bind, Except.bind]
    · rw [S.nat]; exact .rk _ _ _
    · rw [S.nat]; simp
  | serial l sz sr =>
    refine ⟨⟨.f8 (S.f l), 0x24, (S.f l).length, sr⟩, ?_, ⟨?_, ?_⟩, rfl⟩
    · simp [Chunk.take, hasBit, TYPE_STRING, hsel .indexError l (by simp), bind, Except.bind]
    · rw [S.nat]; exact .serial _ _ _
    · rw [S.nat]; simp
  | rkSerial l sz sr =>
    refine ⟨⟨.u32 (S.f l), 0x25, (S.f l).length, sr⟩, ?_, ⟨?_, ?_⟩, rfl⟩
    · simp [Chunk.take, hasBit, TYPE_STRING, hsel .indexError l (by simp), bind, Except.bind]
    · rw [S.nat]; exact .rkSerial _ _ _
    · rw [S.nat]; simp
  | ms l t sz sr h =>
    refine ⟨⟨.i8 (S.f l), t, (S.f l).length, sr⟩, ?_, ⟨?_, ?_⟩, rfl⟩
    · rcases h with rfl | rfl <;>
      simp [Chunk.take, hasBit, TYPE_STRING, hsel .indexError l (by simp), bind, Except.bind]
    · rw [S.nat]; exact .ms _ _ _ _ h
    · rw [S.nat]; simp

/-- A slice that `null_slice` treats as Python does. -/
def PySlice.Tame (s : PySlice) (n : Nat) : Prop :=
  (∀ i, s.stop = some i → i ≠ 0 ∧ i ≤ n) ∧ (∀ i, s.start = some i → -(n : Int) ≤ i)

theorem take_slice (c : Chunk) (k : Cls) (vs : List (Option Val)) (h : c.Holds k vs) (s : PySlice)
    (hs : ∀ i, s.step = some i → 0 < i) (hn : k = .null → s.Tame vs.length) :
    ∃ c', c.take (.slice s) = .ok c' ∧ c'.Holds k (listSlice vs s) ∧ c'.typ = c.typ := by
  by_cases hk : k = .null
  · obtain ⟨hd, hsz⟩ := h
    subst hk
    cases hd with
    | null n sz sr =>
      have ht := hn rfl
      simp only [List.length_replicate] at ht hsz
      subst hsz
      have e := nullSlice_up sz s hs ht.1 ht.2
      refine ⟨Chunk.nulls (pyIndices sz s).length, ?_, ⟨?_, ?_⟩, rfl⟩
      · simp [Chunk.take, hasBit, TYPE_STRING, e]
      · rw [listSlice_replicate _ _ _ hs]; exact .null _ _ _
      · rw [listSlice_replicate _ _ _ hs]; simp [Chunk.nulls]
  · refine take_sel c k vs h.1 hk (.slice s) (sliceSel s) ?_
    intro α e l _
    simp only [selectList, sliceSel]
    rw [sliceList_eq l s hs]

theorem take_mask (c : Chunk) (k : Cls) (vs : List (Option Val)) (h : c.Holds k vs) (m : List Bool)
    (hm : m.length = vs.length) :
    ∃ c', c.take (.mask m) = .ok c' ∧ c'.Holds k (selectRows vs m) ∧ c'.typ = c.typ := by
  by_cases hk : k = .null
  · obtain ⟨hd, hsz⟩ := h
    subst hk
    cases hd with
    | null n sz sr =>
      simp only [List.length_replicate] at hm hsz
      subst hsz; subst hm
      refine ⟨Chunk.nulls (trueCount m), ?_, ⟨?_, ?_⟩, rfl⟩
      · simp [Chunk.take, hasBit, TYPE_STRING]
      · rw [selectRows_replicate]; exact .null _ _ _
      · rw [selectRows_replicate]; simp [Chunk.nulls]
  · refine take_sel c k vs h.1 hk (.mask m) (maskSel m) ?_
    intro α e l hl
    simp only [selectList, maskSel]
    rw [if_pos (by omega), maskList_eq _ _ (by omega)]

/-! ## The slices take_over uses -/

theorem listSlice_from {α : Type} (l : List α) (o : Nat) :
    listSlice l ⟨some (o : Int), none, none⟩ = l.drop o := by
  rw [← sliceList_eq _ _ (by simp)]
  simp only [sliceList, Option.getD_none]
  have : (1 : Int).toNat = 1 := rfl
  rw [this, everyNth_one]
  simp only [sliceBound, List.take_length]
  rw [if_neg (by omega)]
  simp only [Int.toNat_natCast]
  by_cases h : o ≤ l.length
  · rw [min_eq_left h]
  · rw [min_eq_right (by omega), List.drop_of_length_le (by omega), List.drop_of_length_le (by omega)]

theorem listSlice_upto {α : Type} (l : List α) (o : Nat) :
    listSlice l ⟨none, some (o : Int), none⟩ = l.take o := by
  rw [← sliceList_eq _ _ (by simp)]
  simp only [sliceList, Option.getD_none]
  have : (1 : Int).toNat = 1 := rfl
  rw [this, everyNth_one]
  simp only [sliceBound, List.drop_zero]
  rw [if_neg (by omega)]
  simp only [Int.toNat_natCast]
  by_cases h : o ≤ l.length
  · rw [min_eq_left h]
  · rw [min_eq_right (by omega), List.take_of_length_le (by omega), List.take_of_length_le (by omega)]

theorem take_from (c : Chunk) (k : Cls) (vs : List (Option Val)) (h : c.Holds k vs) (o : Int)
    (ho : 0 < o) :
    ∃ c', c.take (.slice ⟨some o, none, none⟩) = .ok c' ∧ c'.Holds k (vs.drop o.toNat) ∧ c'.typ = c.typ := by
  obtain ⟨c', h1, h2, h3⟩ := take_slice c k vs h ⟨some o, none, none⟩ (by simp)
    (fun _ => ⟨by simp, by intro i hi; injection hi with hi; omega⟩)
  refine ⟨c', h1, ?_, h3⟩
  have := listSlice_from vs o.toNat
  rw [show ((o.toNat : Nat) : Int) = o by omega] at this
  rwa [this] at h2

theorem take_upto (c : Chunk) (k : Cls) (vs : List (Option Val)) (h : c.Holds k vs) (o : Int)
    (ho : 0 < o) (ho2 : o ≤ vs.length) :
    ∃ c', c.take (.slice ⟨none, some o, none⟩) = .ok c' ∧ c'.Holds k (vs.take o.toNat) ∧ c'.typ = c.typ := by
  obtain ⟨c', h1, h2, h3⟩ := take_slice c k vs h ⟨none, some o, none⟩ (by simp)
    (fun _ => ⟨by intro i hi; injection hi with hi; omega, by simp⟩)
  refine ⟨c', h1, ?_, h3⟩
  have := listSlice_upto vs o.toNat
  rw [show ((o.toNat : Nat) : Int) = o by omega] at this
  rwa [this] at h2

theorem Column.append {a b : List Chunk} {u v : List (Option Val)} (ha : Column a u) (hb : Column b v) :
    Column (a ++ b) (u ++ v) := by
  induction ha with
  | nil => simpa
  | cons h _ ih => rw [List.cons_append, List.append_assoc]; exact .cons h ih

theorem Column.single {c : Chunk} {k vs} (h : c.Holds k vs) : Column [c] vs := by
  have := Column.cons h Column.nil
  simpa using this

theorem Column.nulls (n : Nat) : Column [Chunk.nulls n] (List.replicate n none) :=
  Column.single (k := .null) ⟨.null _ _ _, by simp [Chunk.nulls]⟩

end Rxls
