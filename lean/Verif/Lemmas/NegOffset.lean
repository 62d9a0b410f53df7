import Verif.Model.Read

/-! # A negative offset skips no rows -/

namespace Rxls

theorem takeLoop_neg (length : Int) : ∀ (cs : List Chunk) (i : Nat) (off cum : Int), off ≤ 0 →
    takeLoop length cs i off cum = takeLoop length cs i 0 cum
  | [], _, _, _, _ => rfl
  | c :: cs, i, off, cum, h => by
    have h1 : ¬ 0 < off := by omega
    simp only [takeLoop, cutTop, h1, false_and, if_false, lt_self_iff_false]
    split
    · rfl
    · split
      · rfl
      · rw [takeLoop_neg length cs (i + 1) off _ h]

theorem takeLoopIdx_neg (m : List Bool) : ∀ (cs : List Chunk) (i : Nat) (off cum : Int), off ≤ 0 →
    takeLoopIdx m cs i off cum = takeLoopIdx m cs i 0 cum
  | [], _, _, _, _ => rfl
  | c :: cs, i, off, cum, h => by
    have h1 : ¬ 0 < off := by omega
    simp only [takeLoopIdx, cutTop, h1, false_and, if_false, lt_self_iff_false]
    rw [takeLoopIdx_neg m cs _ off _ h]
    split
    · rfl
    · split
      · rfl
      · split
        · rfl
        · rw [takeLoopIdx_neg m cs _ off _ h]

theorem takeOver_toNat (cs : List Chunk) (off len : Int) (m : Option (List Bool)) :
    takeOver cs off len m = takeOver cs off.toNat len m := by
  rcases le_or_gt 0 off with h | h
  · rw [Int.toNat_of_nonneg h]
  · rw [Int.toNat_of_nonpos (by omega)]
    unfold takeOver
    cases m with
    | none => simp only [takeLoop_neg len cs 0 off 0 (by omega), Nat.cast_zero]
    | some m => simp only [takeLoopIdx_neg m cs 0 off 0 (by omega), Nat.cast_zero]

theorem concatenate_toNat (env : Env) (o : ConcatOpts) (cs : List Chunk) (off : Int) {len : Int} (m : Option (List Bool))
    (h : len ≠ 0) : concatenate env o cs off len m = concatenate env o cs off.toNat len m := by
  unfold concatenate
  rw [takeOver_toNat, if_pos (Or.inr (Or.inl h)), if_pos (Or.inr (Or.inl h))]

theorem toArrow_toNat (env : Env) (s : Series) (off : Int) {len : Int} (m : Option (List Bool)) (h : len ≠ 0) :
    s.toArrow env off len m = s.toArrow env off.toNat len m := by
  unfold Series.toArrow
  simp only [concatenate_toNat env _ _ off m h]

theorem fetchWith_toNat (env : Env) (off : Int) {len : Int} (m : Option (List Bool)) (h : len ≠ 0) :
    fetchWith env off len m = fetchWith env off.toNat len m := by
  funext s
  exact toArrow_toNat env s off m h

theorem rowMask_toNat (env : Env) (cols : Cols) (fs : List Int) (st : Strategy) (off : Int) {len : Int} (h : len ≠ 0) :
    rowMask env cols fs st off len = rowMask env cols fs st off.toNat len := by
  have : presence env off len = presence env off.toNat len := by
    funext s
    unfold presence
    rw [toArrow_toNat env s off none h]
  unfold rowMask
  rw [this]

end Rxls
