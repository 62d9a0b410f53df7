import Verif.Model.Queue
import Mathlib.Data.List.Basic

/-! # Invariant of the parser thread and its consumer -/

namespace Rxls

/-- The invariant of the two threads. -/
def QInv {α : Type} (items : List α) (s : QState α) : Prop :=
  s.got ++ s.queue.filterMap id ++ s.todo = items ∧
  (s.sent = false → none ∉ s.queue ∧ s.done = false) ∧
  (s.sent = true → s.todo = [] ∧
    ((s.done = false ∧ ∃ q, s.queue = q ++ [none] ∧ none ∉ q) ∨ (s.done = true ∧ s.queue = [])))

theorem qInv_step {α : Type} (items : List α) (t : Thread) (s s' : QState α) (h : QInv items s)
    (hs : qStep t s = some s') : QInv items s' := by
  obtain ⟨h1, h2, h3⟩ := h
  cases t with
  | parser =>
    cases htd : s.todo with
    | cons a l =>
      simp only [qStep, htd, Option.some.injEq] at hs
      have hsent : s.sent = false := by
        cases hc : s.sent with
        | false => rfl
        | true => have := (h3 hc).1; rw [htd] at this; simp at this
      subst hs
      refine ⟨?_, ?_, ?_⟩
      · rw [← h1, htd]; simp
      · intro _; have := h2 hsent; simpa using this
      · intro hc; simp [hsent] at hc
    | nil =>
      simp only [qStep, htd] at hs
      by_cases hsent : s.sent = true
      · simp [hsent] at hs
      · have hsent : s.sent = false := by simpa using hsent
        simp only [hsent, Bool.false_eq_true, if_false, Option.some.injEq] at hs
        subst hs
        refine ⟨?_, by simp, ?_⟩
        · rw [← h1, htd]; simp
        · intro _
          exact ⟨rfl, Or.inl ⟨(h2 hsent).2, s.queue, rfl, (h2 hsent).1⟩⟩
  | consumer =>
    simp only [qStep] at hs
    by_cases hd : s.done = true
    · simp [hd] at hs
    · have hd : s.done = false := by simpa using hd
      simp only [hd, Bool.false_eq_true, if_false] at hs
      cases hq : s.queue with
      | nil => simp [hq] at hs
      | cons x q =>
        cases x with
        | some a =>
          simp only [hq, Option.some.injEq] at hs
          subst hs
          refine ⟨?_, ?_, ?_⟩
          · rw [← h1, hq]; simp
          · intro hc
            have := h2 hc
            rw [hq] at this
            simpa [hd] using this
          · intro hc
            refine ⟨(h3 hc).1, ?_⟩
            rcases (h3 hc).2 with ⟨_, q', e, hn⟩ | ⟨hc', _⟩
            · left
              refine ⟨rfl, ?_⟩
              cases q' with
              | nil => rw [hq] at e; simp at e
              | cons y q' =>
                rw [hq, List.cons_append] at e
                injection e with e1 e2
                exact ⟨q', e2, fun hm => hn (by simp [hm])⟩
            · rw [hd] at hc'; simp at hc'
        | none =>
          simp only [hq, Option.some.injEq] at hs
          subst hs
          have hsent : s.sent = true := by
            by_contra hc
            have := (h2 (by simpa using hc)).1
            rw [hq] at this
            simp at this
          refine ⟨?_, ?_, ?_⟩
          · rw [← h1, hq]; simp
          · intro hc; simp [hsent] at hc
          · intro _
            refine ⟨(h3 hsent).1, Or.inr ⟨rfl, ?_⟩⟩
            rcases (h3 hsent).2 with ⟨_, q', e, hn⟩ | ⟨hc', _⟩
            · cases q' with
              | nil => rw [hq] at e; simpa using e
              | cons y q' =>
                rw [hq, List.cons_append] at e
                injection e with e1 e2
                exact absurd (by simp [← e1]) hn
            · rw [hd] at hc'; simp at hc'

theorem qInv_run {α : Type} (items : List α) (ts : List Thread) : ∀ (s : QState α), QInv items s →
    QInv items (qRun ts s) := by
  induction ts with
  | nil => intro s h; exact h
  | cons t ts ih =>
    intro s h
    rw [qRun]
    apply ih
    cases hs : qStep t s with
    | none => exact h
    | some s' => exact qInv_step items t s s' h hs

theorem qInv_start {α : Type} (items : List α) : QInv items { todo := items } :=
  ⟨by simp, by simp, by simp⟩

end Rxls
