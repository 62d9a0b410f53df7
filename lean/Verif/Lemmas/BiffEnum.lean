import Mathlib.Data.List.Pairwise
import Verif.Model.BiffEnum
import Verif.Lemmas.BiffNumba

/-! Lemmas about the record name table. -/

namespace Rxls

/-- Strictly increasing, as a one-pass check. -/
def ascending : List Nat → Bool
  | a :: b :: l => decide (a < b) && ascending (b :: l)
  | _ => true

theorem ascending_pairwise : ∀ {l : List Nat}, ascending l = true → l.Pairwise (· < ·)
  | [], _ => .nil
  | [a], _ => by simp
  | a :: b :: l, h => by
    simp only [ascending, Bool.and_eq_true, decide_eq_true_eq] at h
    have ih := ascending_pairwise h.2
    refine List.Pairwise.cons ?_ ih
    intro x hx
    rcases List.mem_cons.1 hx with rfl | hx
    · exact h.1
    · exact Nat.lt_trans h.1 (List.rel_of_pairwise_cons ih hx)

theorem biffEnum_ascending : (biffEnum.map Prod.snd).Pairwise (· < ·) :=
  ascending_pairwise (by decide +kernel)

theorem recName_of_mem {e : String × Nat} (he : e ∈ biffEnum) : recName e.2 = e.1 := by
  unfold recName
  cases h : biffEnum.reverse.find? (fun x => x.2 == e.2) with
  | none =>
    have := List.find?_eq_none.1 h e (by simpa using he)
    simp at this
  | some x =>
    have h1 := List.find?_some h
    have h2 : x ∈ biffEnum := by simpa using List.mem_of_find?_eq_some h
    have h3 : x.2 = e.2 := by simpa using h1
    have hp := biffEnum_ascending
    rw [List.pairwise_map] at hp
    by_contra hne
    have hne' : x ≠ e := fun h => hne (by simp [h])
    haveI : Std.Symm (fun a b : String × Nat => a.2 ≠ b.2) := ⟨fun _ _ h => Ne.symm h⟩
    exact (hp.imp (S := fun a b : String × Nat => a.2 ≠ b.2) (fun h => Nat.ne_of_lt h)).forall
      h2 he hne' h3

end Rxls
