import Mathlib.Tactic.SplitIfs
import Verif.Model.Strptime
import Verif.Model.Casts
import Verif.Spec.Strptime

namespace Rxls

variable (sp : Str → Option Str → Option Int)

def mfStep (s : Option Str) (r : Int) (f : Str) : Int := if r = 0 then strptimeElem sp f s else r

theorem mfStep_foldl_ne {s : Option Str} {fmts : List Str} {r : Int} (h : r ≠ 0) :
    fmts.foldl (mfStep sp s) r = r := by
  induction fmts with
  | nil => rfl
  | cons f fs ih => rw [List.foldl_cons, mfStep, if_neg h, ih]

theorem whereZero_map (arr : List (Option Str)) (g : Option Str → Int) (f : Str) :
    whereZero (arr.map g) (strptimeArr sp arr f) = arr.map fun s => mfStep sp s (g s) f := by
  unfold whereZero strptimeArr mfStep
  induction arr with
  | nil => rfl
  | cons a as ih => simp only [List.map_cons, List.zipWith_cons_cons, ih]

theorem mfLoop_spec (arr : List (Option Str)) (fmts : List Str) (g : Option Str → Int) :
    (mfLoop sp arr fmts (arr.map g)).1 = arr.map (fun s => fmts.foldl (mfStep sp s) (g s)) ∧
    ((mfLoop sp arr fmts (arr.map g)).2 = true →
      ∀ r ∈ (mfLoop sp arr fmts (arr.map g)).1, 0 < r) := by
  induction fmts generalizing g with
  | nil => exact ⟨rfl, by simp [mfLoop]⟩
  | cons f fs ih =>
    simp only [mfLoop, whereZero_map]
    by_cases h : ((arr.map fun s => mfStep sp s (g s) f).all fun r => decide (0 < r)) = true
    · rw [if_pos h]
      simp only [List.all_eq_true, decide_eq_true_eq] at h
      refine ⟨?_, fun _ => h⟩
      apply List.map_congr_left
      intro s hs
      rw [List.foldl_cons, mfStep_foldl_ne]
      have := h _ (List.mem_map.2 ⟨s, hs, rfl⟩)
      omega
    · rw [if_neg h]
      exact ih (fun s => mfStep sp s (g s) f)

/-- What the loop computes for one string. -/
def mfElem (fmts : List Str) (s : Option Str) : Int := fmts.foldl (mfStep sp s) 0

theorem mfStrptime_eq (defaults : List Str) (arr : List (Option Str)) (fmts : List Str)
    (strict : Bool) (hf : fmts ≠ []) : mfStrptime sp defaults arr fmts strict =
    if strict && (arr.map (mfElem sp fmts)).any (fun r => decide (r = 0)) then .error .arrowInvalid
    else .ok (arr.map (mfElem sp fmts)) := by
  have h0 : List.replicate arr.length (0 : Int) = arr.map fun _ => 0 := by simp
  have hL := mfLoop_spec sp arr fmts (fun _ => 0)
  unfold mfStrptime
  have hfe : fmts.isEmpty = false := by cases fmts <;> simp_all
  simp only [hfe, Bool.false_eq_true, if_false, h0]
  have e : (arr.map fun s => fmts.foldl (mfStep sp s) 0) = arr.map (mfElem sp fmts) := rfl
  rw [e] at hL
  have hL1 := hL.1
  rw [hL1] at hL ⊢
  by_cases he : (mfLoop sp arr fmts (arr.map fun _ => 0)).2 = true
  · rw [if_pos he, if_neg]
    simp only [Bool.and_eq_true, List.any_eq_true, decide_eq_true_eq, not_and, not_exists]
    intro _ r hr
    have := hL.2 he r hr
    omega
  · rw [if_neg he]

theorem mfElem_eq (fmts : List Str) (s : Option Str)
    (h : ∀ f ∈ fmts, ∀ v, sp f s = some v → timeOfDay v ≠ 0) :
    mfElem sp fmts s = ((firstRecognised sp fmts s).map timeOfDay).getD 0 := by
  unfold mfElem firstRecognised
  induction fmts with
  | nil => rfl
  | cons f fs ih =>
    rw [List.foldl_cons, List.findSome?_cons]
    cases hsp : sp f s with
    | none =>
      have : mfStep sp s 0 f = 0 := by simp [mfStep, strptimeElem, hsp]
      rw [this]
      exact ih fun f hf => h f (List.mem_cons_of_mem _ hf)
    | some v =>
      have : mfStep sp s 0 f = timeOfDay v := by simp [mfStep, strptimeElem, hsp, timeOfDay]
      rw [this, mfStep_foldl_ne sp (h f (List.mem_cons_self) v hsp)]
      rfl

/-- Parsing gives, up to the reduction, the first *useful* value. -/
theorem mfElem_usable (fmts : List Str) (s : Option Str) :
    mfElem sp fmts s =
      (fmts.findSome? fun f => (sp f s).bind fun v => if timeOfDay v = 0 then none else some (timeOfDay v)).getD 0 := by
  unfold mfElem
  induction fmts with
  | nil => rfl
  | cons f fs ih =>
    rw [List.foldl_cons, List.findSome?_cons]
    cases hsp : sp f s with
    | none =>
      have : mfStep sp s 0 f = 0 := by simp [mfStep, strptimeElem, hsp]
      rw [this, ih]; rfl
    | some v =>
      have : mfStep sp s 0 f = timeOfDay v := by simp [mfStep, strptimeElem, hsp, timeOfDay]
      rw [this]
      by_cases hv : timeOfDay v = 0
      · rw [hv, ih]; simp [hv]
      · rw [mfStep_foldl_ne sp hv]; simp [hv]

theorem mapM_firstRecognised (fmts : List Str) (arr : List (Option Str))
    (h : ∀ f ∈ fmts, ∀ s ∈ arr, ∀ v, sp f s = some v → timeOfDay v ≠ 0) :
    (if (arr.map (mfElem sp fmts)).any (fun r => decide (r = 0)) then Except.error PyErr.arrowInvalid
      else Except.ok (arr.map (mfElem sp fmts))) =
    match arr.mapM (firstRecognised sp fmts) with
    | some vs => (.ok (vs.map timeOfDay) : Py (List Int))
    | none => .error .arrowInvalid := by
  induction arr with
  | nil => simp
  | cons s ss ih =>
    have ih := ih fun f hf s hs => h f hf s (List.mem_cons_of_mem _ hs)
    have he := mfElem_eq sp fmts s fun f hf => h f hf s List.mem_cons_self
    rw [List.mapM_cons]
    cases hr : firstRecognised sp fmts s with
    | none =>
      rw [hr] at he
      simp [he]
    | some v =>
      rw [hr] at he
      have hv : timeOfDay v ≠ 0 := by
        unfold firstRecognised at hr
        obtain ⟨f, hf, hfs⟩ := List.exists_of_findSome?_eq_some hr
        exact h f hf s List.mem_cons_self v hfs
      simp only [Option.map_some, Option.getD_some] at he
      simp only [List.map_cons, he, List.any_cons, hv, decide_false, Bool.false_or]
      revert ih
      cases List.mapM (firstRecognised sp fmts) ss with
      | none => intro ih; simp_all
      | some vs =>
        intro ih
        by_cases ha : ((ss.map (mfElem sp fmts)).any fun r => decide (r = 0)) = true
        · rw [if_pos ha] at ih; simp at ih
        · rw [if_neg ha] at ih ⊢
          simp only [Except.ok.injEq] at ih
          simp [ih]

/-! ## Bit masks -/

theorem unpackbits_cons (b : UInt8) (bs : Bytes) :
    unpackbits (b :: bs) = ((List.range 8).map fun i => b.toNat.testBit (7 - i)) ++ unpackbits bs := rfl

theorem unpackbits_length (bs : Bytes) : (unpackbits bs).length = 8 * bs.length := by
  induction bs with
  | nil => rfl
  | cons b bs ih => rw [unpackbits_cons, List.length_append, ih]; simp; omega

theorem unpackbits_getD (bs : Bytes) (i : Nat) (h : i < 8 * bs.length) :
    (unpackbits bs)[i]? = some ((bs.getD (i / 8) 0).toNat.testBit (7 - i % 8)) := by
  induction bs generalizing i with
  | nil => simp at h
  | cons b bs ih =>
    rw [unpackbits_cons]
    by_cases hi : i < 8
    · rw [List.getElem?_append_left (by simpa using hi)]
      have : i / 8 = 0 := by omega
      have h2 : i % 8 = i := by omega
      simp [this, h2, hi]
    · rw [List.getElem?_append_right (by simp; omega)]
      simp only [List.length_map, List.length_range]
      rw [ih (i - 8) (by simp at h; omega)]
      have h1 : i / 8 = (i - 8) / 8 + 1 := by omega
      have h2 : i % 8 = (i - 8) % 8 := by omega
      rw [h1, h2]; simp

theorem unsafeBool_getElem (buf : Bytes) (n i : Nat) (hn : n ≤ 8 * buf.length) (hi : i < n) :
    (unsafeBoolArrowToNumpy buf n)[i]? = some (arrowBit buf.reverse i) := by
  unfold unsafeBoolArrowToNumpy
  rw [if_neg (by omega)]
  have hlen := unpackbits_length buf
  rw [List.getElem?_reverse (by rw [List.length_drop, hlen]; omega), List.getElem?_drop,
    List.length_drop, hlen]
  rw [show 8 * buf.length - n + (8 * buf.length - (8 * buf.length - n) - 1 - i) =
    8 * buf.length - 1 - i by omega]
  rw [unpackbits_getD _ _ (by omega)]
  unfold arrowBit
  congr 1
  have h1 : (8 * buf.length - 1 - i) / 8 = buf.length - 1 - i / 8 := by omega
  have h2 : 7 - (8 * buf.length - 1 - i) % 8 = i % 8 := by omega
  rw [h1, h2]
  congr 2
  rw [List.getD_eq_getElem?_getD, List.getD_eq_getElem?_getD, List.getElem?_reverse (by omega)]

theorem unsafeBool_length (buf : Bytes) (n : Nat) (h0 : n ≠ 0) (hn : n ≤ 8 * buf.length) :
    (unsafeBoolArrowToNumpy buf n).length = n := by
  unfold unsafeBoolArrowToNumpy
  rw [if_neg h0, List.length_reverse, List.length_drop, unpackbits_length]; omega

end Rxls
