import Verif.Model.Buffer
import Verif.Lemmas.Series
import Verif.Props.Casts

/-! # Property C86: raw views of buffers -/

namespace Rxls

/-! ### What an Arrow array of elements of `w` bytes means (Arrow columnar format) -/

/-- Element `i` stands at byte `(offset + i) * w`, unless its validity entry is false. -/
def FixedArray.element (w : Nat) (arr : FixedArray) (i : Nat) : Option Nat :=
  if (arr.valid.bind (·[i]?)) = some false then none
  else some (leNat ((arr.buf.drop ((arr.offset + i) * w)).take w))

def FixedArray.elements (w : Nat) (arr : FixedArray) : List (Option Nat) :=
  (List.range arr.length).map (arr.element w)

/-- The array lies inside its buffer. -/
def FixedArray.Within (w : Nat) (arr : FixedArray) : Prop := (arr.offset + arr.length) * w ≤ arr.buf.length

theorem piecesOf_length (w : Nat) : ∀ n b, (piecesOf w n b).length = n
  | 0, _ => rfl
  | n + 1, b => by simp [piecesOf, piecesOf_length w n]

theorem piecesOf_get (w : Nat) : ∀ n b i, i < n → (piecesOf w n b)[i]? = some ((b.drop (i * w)).take w)
  | 0, _, _, h => by omega
  | n + 1, b, 0, _ => by simp [piecesOf]
  | n + 1, b, i + 1, h => by
    simp only [piecesOf, List.getElem?_cons_succ]
    rw [piecesOf_get w n _ i (by omega), List.drop_drop, show w + i * w = (i + 1) * w by ring]

theorem view_elements (w : Nat) (hw : 0 < w) (arr : FixedArray) (h : arr.Within w) (l : List Nat) :
    unsafeArray w arr = .ok l ∧ arr.elements w = l.map some ↔
      unsafeArray w arr = .ok l ∧ arr.buf.length = w * arr.length ∧ ∀ i < arr.length, arr.element w i ≠ none := by
  constructor
  · rintro ⟨h1, h2⟩
    refine ⟨h1, ?_, ?_⟩
    · unfold unsafeArray at h1
      split at h1
      · cases h1
      · rename_i hm
        push Not at hm
        injection h1 with h1
        have hl := congrArg List.length h1
        rw [List.length_map, piecesOf_length] at hl
        have := congrArg List.length h2
        simp [FixedArray.elements] at this
        rw [this, ← hl]
        exact (Nat.mul_div_cancel' (Nat.dvd_of_mod_eq_zero hm)).symm
    · intro i hi hn
      have : (arr.elements w)[i]? = some none := by simp [FixedArray.elements, hi, hn]
      rw [h2] at this
      simp at this
  · rintro ⟨h1, h2, h3⟩
    refine ⟨h1, ?_⟩
    unfold unsafeArray at h1
    split at h1
    · cases h1
    injection h1 with h1
    have hoff : arr.offset = 0 := by
      unfold FixedArray.Within at h
      rw [h2] at h
      by_contra hne
      have : w * arr.length < (arr.offset + arr.length) * w := by
        have : 1 ≤ arr.offset := by omega
        nlinarith
      omega
    subst h1
    apply List.ext_getElem?
    intro i
    by_cases hi : i < arr.length
    · have hd : arr.buf.length / w = arr.length := by rw [h2, Nat.mul_div_cancel_left _ hw]
      rw [List.getElem?_map, List.getElem?_map, piecesOf_get _ _ _ _ (by omega)]
      simp only [FixedArray.elements, List.getElem?_map, List.getElem?_range hi, Option.map_some]
      have := h3 i hi
      unfold FixedArray.element at this ⊢
      split at this
      · exact absurd rfl this
      · rename_i hv
        rw [if_neg hv, hoff, Nat.zero_add]
    · have hd : arr.buf.length / w = arr.length := by rw [h2, Nat.mul_div_cancel_left _ hw]
      rw [List.getElem?_eq_none (by simp [FixedArray.elements]; omega),
        List.getElem?_eq_none (by simp [piecesOf_length]; omega)]

/-- C86.  The view of an array is its elements exactly when no element is null and the buffer has no bytes but
theirs. -/
theorem C86_view_exact (w : Nat) (hw : 0 < w) (arr : FixedArray) (h : arr.Within w) :
    (∃ l, unsafeArray w arr = .ok l ∧ arr.elements w = l.map some) ↔
      arr.buf.length = w * arr.length ∧ ∀ i < arr.length, arr.element w i ≠ none := by
  constructor
  · rintro ⟨l, hl⟩
    exact ((view_elements w hw arr h l).mp hl).2
  · rintro ⟨h1, h2⟩
    have : unsafeArray w arr = .ok ((piecesOf w (arr.buf.length / w) arr.buf).map leNat) := by
      unfold unsafeArray
      rw [if_neg (by rw [h1]; simp)]
    exact ⟨_, (view_elements w hw arr h _).mpr ⟨this, h1, h2⟩⟩

theorem leBytes_length : ∀ w n, (leBytes w n).length = w
  | 0, _ => rfl
  | w + 1, n => by simp [leBytes, leBytes_length w]

theorem leNat_leBytes : ∀ w n, n < 256 ^ w → leNat (leBytes w n) = n
  | 0, n, h => by simp at h; simp [leBytes, leNat, h]
  | w + 1, n, h => by
    rw [leBytes, leNat, leNat_leBytes w _ (by rw [Nat.div_lt_iff_lt_mul (by norm_num)]; rw [pow_succ] at h; exact h)]
    have : (UInt8.ofNat (n % 256)).toNat = n % 256 := by simp
    rw [this]
    omega

theorem flatMap_leBytes_length (w : Nat) : ∀ l : List Nat, (l.flatMap (leBytes w)).length = w * l.length
  | [] => rfl
  | n :: l => by
    rw [List.flatMap_cons, List.length_append, leBytes_length, flatMap_leBytes_length w l, List.length_cons]; ring

theorem piecesOf_flatMap (w : Nat) : ∀ l : List Nat, piecesOf w l.length (l.flatMap (leBytes w)) = l.map (leBytes w)
  | [] => rfl
  | n :: l => by
    have h := leBytes_length w n
    rw [List.length_cons, piecesOf, List.flatMap_cons, List.map_cons, List.take_append_of_le_length (by omega),
      List.take_of_length_le (by omega), List.drop_append_of_le_length (by omega), List.drop_of_length_le (by omega),
      List.nil_append, piecesOf_flatMap w l]

/-- C86.  An Arrow array made from numpy elements has these elements, and its view gives them back. -/
theorem C86_roundtrip (w : Nat) (hw : 0 < w) (l : List Nat) (h : ∀ n ∈ l, n < 256 ^ w) :
    unsafeArray w (unsafeArrow w l) = .ok l ∧ (unsafeArrow w l).elements w = l.map some := by
  have hlen := flatMap_leBytes_length w l
  have h1 : unsafeArray w (unsafeArrow w l) = .ok l := by
    unfold unsafeArray unsafeArrow
    simp only
    rw [hlen, if_neg (by simp), Nat.mul_div_cancel_left _ hw, piecesOf_flatMap, List.map_map]
    congr 1
    conv_rhs => rw [← List.map_id l]
    exact List.map_congr_left fun n hn => leNat_leBytes w n (h n hn)
  refine (view_elements w hw _ ?_ l).mpr ⟨h1, hlen, fun i _ => by simp [FixedArray.element, unsafeArrow]⟩
  unfold FixedArray.Within unsafeArrow
  simp only
  rw [hlen]
  exact le_of_eq (by ring)

example : unsafeArrow 2 [1, 65535] = ⟨[1, 0, 255, 255], 0, 2, none⟩ ∧
    unsafeArray 2 ⟨[1, 0, 255, 255], 0, 2, none⟩ = .ok [1, 65535] := by decide +kernel

/-- C86.  The elements of a slice are a slice of the elements. -/
theorem C86_slice_elements (w : Nat) (arr : FixedArray) (off len : Nat) :
    (arr.slice off len).elements w = ((arr.elements w).drop off).take len := by
  apply List.ext_getElem?
  intro i
  rw [List.getElem?_take, List.getElem?_drop]
  unfold FixedArray.elements
  rw [List.getElem?_map, List.getElem?_map]
  by_cases hi : i < min len (arr.length - off)
  · rw [List.getElem?_range (show i < (arr.slice off len).length from hi), if_pos (by omega), List.getElem?_range (by omega),
      Option.map_some, Option.map_some]
    unfold FixedArray.element
    have h1 : (arr.slice off len).valid.bind (·[i]?) = arr.valid.bind (·[off + i]?) := by
      unfold FixedArray.slice
      simp only
      cases arr.valid with
      | none => rfl
      | some v => simp only [Option.map_some, Option.bind_some, List.getElem?_take, List.getElem?_drop, if_pos (show i < len by omega)]
    rw [h1]
    split
    · rfl
    · unfold FixedArray.slice
      simp only
      rw [show min off arr.length = off by omega, Nat.add_assoc]
  · rw [List.getElem?_eq_none (by rw [List.length_range]; exact Nat.not_lt.mp hi)]
    split
    · rw [List.getElem?_eq_none (by rw [List.length_range]; omega)]; rfl
    · rfl

example : ((unsafeArrow 2 [1, 2, 3, 4]).slice 1 3).slice 1 5 = ⟨[1, 0, 2, 0, 3, 0, 4, 0], 2, 2, none⟩ ∧
    (((unsafeArrow 2 [1, 2, 3, 4]).slice 1 3).slice 1 5).elements 2 = [some 3, some 4] := by decide +kernel

/-- Finding, outside the stated domain: the view of a slice is the view of the whole array, and a null reads as the
number that happens to stand in the buffer. -/
theorem C86_slice_and_null (w : Nat) (arr : FixedArray) (off len : Nat) (v : Option (List Bool)) :
    unsafeArray w (arr.slice off len) = unsafeArray w arr ∧
    unsafeArray w { arr with valid := v } = unsafeArray w arr := ⟨rfl, rfl⟩

example : ((unsafeArrow 4 [10, 20, 30]).slice 1 1).elements 4 = [some 20] ∧
    unsafeArray 4 ((unsafeArrow 4 [10, 20, 30]).slice 1 1) = .ok [10, 20, 30] ∧
    (FixedArray.elements 1 ⟨[0, 7], 0, 2, some [false, true]⟩) = [none, some 7] ∧
    unsafeArray 1 ⟨[0, 7], 0, 2, some [false, true]⟩ = .ok [0, 7] := by decide +kernel

/-- Finding, outside the stated domain: with types of different sizes other numbers appear, or too many of them, or
the view is refused. -/
theorem C86_other_size :
    unsafeArray 4 (unsafeArrow 8 [4294967297]) = .ok [1, 1] ∧ unsafeArray 8 (unsafeArrow 4 [1, 1]) = .ok [4294967297] ∧
    unsafeArray 8 (unsafeArrow 4 [1]) = .error .valueError := by decide +kernel

end Rxls
