import Verif.Spec.Read
import Verif.Lemmas.XlsxParts

/-! # Names, filters and types -/

namespace Rxls

/-! ## Unique names -/

theorem uniqueName_new {taken : List Str} {hdr : Str} : ∀ (f i : Nat) (n : Str) {r : Str},
    uniqueName taken hdr f i n = some r → r ∉ taken
  | 0, _, _, _, h => by simp [uniqueName] at h
  | f + 1, i, n, r, h => by
    rw [uniqueName] at h
    split at h
    · exact uniqueName_new f _ _ h
    · injection h with h; subst h; assumption

theorem uniqueName_none {taken : List Str} {hdr : Str} : ∀ (f i : Nat) (n : Str),
    uniqueName taken hdr (f + 1) i n = none → n ∈ taken ∧ ∀ j < f, hdr ++ '.' :: pyStr (i + j) ∈ taken
  | 0, i, n, h => by
    rw [uniqueName] at h
    split at h
    · exact ⟨by assumption, by simp⟩
    · simp at h
  | f + 1, i, n, h => by
    rw [uniqueName] at h
    split at h
    · rename_i hn
      obtain ⟨h1, h2⟩ := uniqueName_none f _ _ h
      refine ⟨hn, fun j hj => ?_⟩
      cases j with
      | zero => exact h1
      | succ j => have := h2 j (by omega); rwa [show i + (j + 1) = i + 1 + j by omega]
    · simp at h

theorem uniqueName_ok (taken : List Str) (hdr : Str) :
    ∃ r, uniqueName taken hdr (taken.length + 2) 1 hdr = some r ∧ r ∉ taken := by
  cases h : uniqueName taken hdr (taken.length + 2) 1 hdr with
  | some r => exact ⟨r, rfl, uniqueName_new _ _ _ h⟩
  | none =>
    exfalso
    obtain ⟨_, h2⟩ := uniqueName_none _ _ _ h
    have hsub : (List.range (taken.length + 1)).map (fun j => hdr ++ '.' :: pyStr (1 + j)) ⊆ taken := by
      intro x hx
      obtain ⟨j, hj, rfl⟩ := List.mem_map.mp hx
      exact h2 j (List.mem_range.mp hj)
    have hnd : ((List.range (taken.length + 1)).map (fun j => hdr ++ '.' :: pyStr (1 + j))).Nodup := by
      refine List.Nodup.map ?_ List.nodup_range
      intro a b hab
      have := List.append_cancel_left hab
      injection this with _ this
      have := pyStr_inj this
      omega
    have := (List.subperm_of_subset hnd hsub).length_le
    simp at this

theorem resultHdrs_ok : ∀ (l taken : List Str), taken.Nodup →
    ∃ r, resultHdrs taken l = some r ∧ r.Nodup ∧ r.length = taken.length + l.length
  | [], taken, h => ⟨taken, rfl, h, by simp⟩
  | hdr :: l, taken, h => by
    obtain ⟨n, e, hn⟩ := uniqueName_ok taken hdr
    obtain ⟨r, e2, h2, h3⟩ := resultHdrs_ok l (taken ++ [n]) (by
      refine List.nodup_append.mpr ⟨h, by simp, ?_⟩
      intro a ha b hb
      simp at hb; subst hb
      exact fun he => hn (he ▸ ha))
    refine ⟨r, ?_, h2, by simp at h3 ⊢; omega⟩
    rw [resultHdrs, e]
    exact e2

theorem positional_nodup (n : Nat) : ((List.range n).map fun i => unnamedDot ++ pyStr i).Nodup := by
  refine List.Nodup.map ?_ List.nodup_range
  intro a b hab
  exact pyStr_inj (List.append_cancel_left hab)

/-! ## Filters -/

/-- The truth value an operator gives. -/
def RowOp.ap (op : RowOp) (a b : Bool) : Bool := if op = .and then a && b else a || b

theorem foldBools_ok (n : Nat) : ∀ (l : List (RowOp × List Bool)) (acc : List Bool), acc.length = n →
    (∀ p ∈ l, p.2.length = n) →
    ∃ m, foldBools acc l = .ok m ∧ m.length = n ∧
      ∀ i < n, m.getD i false = l.foldl (fun a p => p.1.ap a (p.2.getD i false)) (acc.getD i false)
  | [], acc, h, _ => ⟨acc, rfl, h, fun i _ => rfl⟩
  | (op, b) :: l, acc, h, hl => by
    have hb : b.length = n := hl (op, b) (by simp)
    have hz : (List.zipWith (if op = .and then Bool.and else Bool.or) acc b).length = n := by
      rw [List.length_zipWith]; omega
    obtain ⟨m, e, h1, h2⟩ := foldBools_ok n l _ hz (fun p hp => hl p (by simp [hp]))
    refine ⟨m, ?_, h1, fun i hi => ?_⟩
    · rw [foldBools, zipBools, if_pos (by omega)]
      exact e
    · rw [h2 i hi, List.foldl_cons]
      congr 1
      have ha : acc[i]? = some acc[i] := List.getElem?_eq_getElem (by omega)
      have hbb : b[i]? = some b[i] := List.getElem?_eq_getElem (by omega)
      simp only [List.getD, List.getElem?_zipWith, ha, hbb, Option.getD_some]
      unfold RowOp.ap
      split <;> rfl

theorem foldl_or (l : List (List Bool)) (i : Nat) (a : Bool) :
    (l.map fun x => (RowOp.or, x)).foldl (fun a p => p.1.ap a (p.2.getD i false)) a =
      (a || l.any fun b => b.getD i false) := by
  induction l generalizing a with
  | nil => simp
  | cons b l ih =>
    rw [List.map_cons, List.foldl_cons, ih, List.any_cons]
    have : RowOp.or.ap a (b.getD i false) = (a || b.getD i false) := rfl
    rw [this, Bool.or_assoc]

theorem foldl_and (l : List (List Bool)) (i : Nat) (a : Bool) :
    (l.map fun x => (RowOp.and, x)).foldl (fun a p => p.1.ap a (p.2.getD i false)) a =
      (a && l.all fun b => b.getD i false) := by
  induction l generalizing a with
  | nil => simp
  | cons b l ih =>
    rw [List.map_cons, List.foldl_cons, ih, List.all_cons]
    have : RowOp.and.ap a (b.getD i false) = (a && b.getD i false) := rfl
    rw [this, Bool.and_assoc]

theorem keysWhere_mem (test : Str → Bool) (names : List Str) : ∀ (keys : List Int),
    keysWhere (fun n => .ok (test n)) (names.zip keys) =
      .ok (((names.zip keys).filter fun p => test p.1).map (·.2)) := by
  intro keys
  induction names.zip keys with
  | nil => rfl
  | cons p l ih =>
    obtain ⟨n, k⟩ := p
    rw [keysWhere, ih]
    simp only [List.filter_cons]
    cases test n <;> rfl

theorem anyMatch_ok (re : Str → Str → Bool) (ps : List Str) (n : Str) :
    anyMatch (fun p n => .ok (re p n)) ps n = .ok (ps.any fun p => re p n) := by
  induction ps with
  | nil => rfl
  | cons p ps ih =>
    rw [anyMatch, List.any_cons]
    cases re p n
    · exact ih
    · rfl

/-! ## Types -/

theorem castOne_retyped {A D : Type} (lib : Lib A D) (a : A) (d : D) :
    castOne lib a d = match retyped lib a (some d) with
      | some b => .ok b
      | none => .error .valueError := by
  unfold castOne retyped
  by_cases h : lib.arrId a = lib.typeId d
  · simp [h]
  · simp only [ne_eq, h, not_false_eq_true, if_true, if_false]
    cases lib.cast a d <;> rfl

/-- All of a list, if all are there. -/
def allSome {α : Type} : List (Option α) → Option (List α)
  | [] => some []
  | none :: _ => none
  | some a :: l => (allSome l).map (a :: ·)

theorem castEach_retyped {A D : Type} (lib : Lib A D) : ∀ (l : List (A × Option D)),
    castEach lib l = match allSome (l.map fun p => retyped lib p.1 p.2) with
      | some r => .ok r
      | none => .error .valueError
  | [] => rfl
  | (a, none) :: l => by
    rw [castEach, castEach_retyped lib l, List.map_cons]
    simp only [show retyped (D := D) lib a none = some a from rfl, allSome]
    cases allSome (l.map fun p => retyped lib p.1 p.2) <;> rfl
  | (a, some d) :: l => by
    rw [castEach, castOne_retyped, castEach_retyped lib l, List.map_cons]
    simp only
    cases retyped lib a (some d) with
    | none => rfl
    | some b =>
      simp only [allSome]
      cases allSome (l.map fun p => retyped lib p.1 p.2) <;> rfl

theorem allSome_spec {α : Type} : ∀ (l : List (Option α)),
    (∀ x ∈ l, x.isSome) → ∃ r, allSome l = some r ∧ l = r.map some
  | [], _ => ⟨[], rfl, rfl⟩
  | none :: l, h => by simpa using h none (by simp)
  | some a :: l, h => by
    obtain ⟨r, e, hr⟩ := allSome_spec l fun x hx => h x (by simp [hx])
    exact ⟨a :: r, by rw [allSome, e]; rfl, by rw [hr]; rfl⟩

theorem allSome_none {α : Type} : ∀ (l : List (Option α)), none ∈ l → allSome l = none
  | none :: l, _ => rfl
  | some a :: l, h => by
    have : none ∈ l := by simpa using h
    rw [allSome, allSome_none l this]; rfl

/-- The pairs of array and type that `applyDtypes` casts. -/
theorem applyDtypes_pairs {A D : Type} (lib : Lib A D) (names : List Str) (arrays : List A)
    (hl : arrays.length = names.length) (arg : DtypesArg D) (hs : ∀ l, arg = .sequence l → l.length = names.length) :
    applyDtypes lib names arrays arg =
      match allSome (arrays.zipIdx.map fun p => retyped lib p.1 (wantedType names p.2 arg)) with
      | some r => .ok r
      | none => .error .valueError := by
  have key : ∀ (l : List (A × Option D)), l = arrays.zipIdx.map (fun p => (p.1, wantedType names p.2 arg)) →
      castEach lib l = match allSome (arrays.zipIdx.map fun p => retyped lib p.1 (wantedType names p.2 arg)) with
      | some r => .ok r
      | none => .error .valueError := by
    intro l hll
    rw [castEach_retyped, hll, List.map_map]
    rfl
  cases arg with
  | none =>
    rw [applyDtypes]
    have h := allSome_spec (arrays.zipIdx.map fun p => retyped (D := D) lib p.1 (wantedType names p.2 .none)) (by
      intro x hx
      obtain ⟨p, _, rfl⟩ := List.mem_map.mp hx
      rfl)
    obtain ⟨r, e, hr⟩ := h
    rw [e]
    simp only
    congr 1
    have : (arrays.zipIdx.map fun p => retyped (D := D) lib p.1 (wantedType names p.2 .none)) = arrays.map some := by
      have : (fun p : A × Nat => retyped (D := D) lib p.1 (wantedType names p.2 .none)) = some ∘ Prod.fst := by
        funext p; rfl
      rw [this, ← List.map_map, List.zipIdx_map_fst]
    rw [this] at hr
    exact (List.map_injective_iff.mpr (Option.some_injective _)) hr
  | single d =>
    rw [applyDtypes]
    apply key
    have : (fun p : A × Nat => (p.1, wantedType names p.2 (.single d))) = (fun a => (a, some d)) ∘ Prod.fst := by
      funext p; rfl
    rw [this, ← List.map_map, List.zipIdx_map_fst]
  | mapping l =>
    rw [applyDtypes]
    apply key
    apply List.ext_getElem
    · simp; omega
    · intro i h1 h2
      simp only [List.length_map, List.length_zip, List.length_zipIdx] at h1 h2
      simp [wantedType, List.getElem?_eq_getElem (show i < names.length by omega)]
  | sequence l =>
    rw [applyDtypes]
    have hll := hs l rfl
    rw [if_neg (by omega)]
    apply key
    apply List.ext_getElem
    · simp; omega
    · intro i h1 h2
      simp only [List.length_map, List.length_zip, List.length_zipIdx] at h1 h2
      simp [wantedType, List.getElem?_eq_getElem (show i < l.length by omega)]

end Rxls
