import Verif.Lemmas.Queue

/-! # Property C44: the parser thread and its consumer -/

namespace Rxls

/-- C44, safety.  Under every schedule the cells received so far are the first ones the parser produced, in order,
and when the consumer stops it has received all of them. -/
theorem C44_in_order {α : Type} (items : List α) (ts : List Thread) :
    (qRun ts { todo := items }).got <+: items ∧
    ((qRun ts { todo := items }).done = true → (qRun ts { todo := items }).got = items) := by
  obtain ⟨h1, h2, h3⟩ := qInv_run items ts _ (qInv_start items)
  rw [List.append_assoc] at h1
  refine ⟨⟨_, h1⟩, ?_⟩
  intro hd
  rw [← List.append_assoc] at h1
  have hsent : (qRun ts { todo := items }).sent = true := by
    by_contra hc
    have := (h2 (by simpa using hc)).2
    rw [hd] at this
    simp at this
  obtain ⟨ht, hq⟩ := h3 hsent
  rcases hq with ⟨hc, _⟩ | ⟨_, hq⟩
  · rw [hd] at hc; simp at hc
  · rw [ht, hq] at h1
    simpa using h1

/-- C44, no deadlock.  Under every schedule, as long as the consumer has not stopped one of the threads can move. -/
theorem C44_no_deadlock {α : Type} (items : List α) (ts : List Thread)
    (hd : (qRun ts { todo := items }).done = false) :
    ∃ t s', qStep t (qRun ts { todo := items }) = some s' := by
  obtain ⟨h1, h2, h3⟩ := qInv_run items ts _ (qInv_start items)
  generalize qRun ts { todo := items } = s at *
  cases ht : s.todo with
  | cons a l => exact ⟨.parser, _, by simp only [qStep, ht]; rfl⟩
  | nil =>
    cases hs : s.sent with
    | false => exact ⟨.parser, _, by simp only [qStep, ht, hs, Bool.false_eq_true, if_false]; rfl⟩
    | true =>
      rcases (h3 hs).2 with ⟨_, q, e, _⟩ | ⟨hc, _⟩
      · cases q with
        | nil => exact ⟨.consumer, _, by simp only [qStep, hd, Bool.false_eq_true, if_false, e]; rfl⟩
        | cons x q =>
          cases x with
          | some a => exact ⟨.consumer, _, by simp only [qStep, hd, Bool.false_eq_true, if_false, e]; rfl⟩
          | none => exact ⟨.consumer, _, by simp only [qStep, hd, Bool.false_eq_true, if_false, e]; rfl⟩
      · rw [hd] at hc; simp at hc

/-- What is left to do: every step lowers it. -/
def qLeft {α : Type} (s : QState α) : Nat :=
  2 * s.todo.length + (if s.sent then 0 else 2) + s.queue.length

/-- C44, termination.  Every step of either thread lowers a number that starts at twice the number of cells plus
two: no schedule can keep the threads busy for ever. -/
theorem C44_terminates {α : Type} (items : List α) :
    qLeft ({ todo := items } : QState α) = 2 * items.length + 2 ∧
    ∀ (t : Thread) (s s' : QState α), qStep t s = some s' → qLeft s' < qLeft s := by
  refine ⟨by simp [qLeft], ?_⟩
  intro t s s' hs
  cases t with
  | parser =>
    cases htd : s.todo with
    | cons a l =>
      simp only [qStep, htd, Option.some.injEq] at hs
      subst hs
      simp [qLeft, htd]
      omega
    | nil =>
      cases hsent : s.sent with
      | true => simp [qStep, htd, hsent] at hs
      | false =>
        simp only [qStep, htd, hsent, Bool.false_eq_true, if_false, Option.some.injEq] at hs
        subst hs
        simp [qLeft, htd, hsent]
        omega
  | consumer =>
    cases hd : s.done with
    | true => simp [qStep, hd] at hs
    | false =>
      cases hq : s.queue with
      | nil => simp [qStep, hd, hq] at hs
      | cons x q =>
        cases x <;>
        · simp only [qStep, hd, Bool.false_eq_true, if_false, hq, Option.some.injEq] at hs
          subst hs
          simp [qLeft, hq]

/-- C44.  Any schedule that goes on until no thread can move ends with the consumer stopped and holding exactly the
cells of the parser, in order. -/
theorem C44_delivers_all {α : Type} (items : List α) (ts : List Thread)
    (h : ∀ t, qStep t (qRun ts { todo := items }) = none) :
    (qRun ts { todo := items }).done = true ∧ (qRun ts { todo := items }).got = items := by
  have hd : (qRun ts { todo := items }).done = true := by
    by_contra hc
    obtain ⟨t, s', hs⟩ := C44_no_deadlock items ts (by simpa using hc)
    rw [h t] at hs
    simp at hs
  exact ⟨hd, (C44_in_order items ts).2 hd⟩

example : (qRun [.consumer, .parser, .parser, .consumer, .consumer, .consumer, .parser, .consumer]
      ({ todo := [10, 20] } : QState Nat)).got = [10, 20] ∧
    (qRun [.consumer, .parser, .parser, .consumer, .consumer, .consumer, .parser, .consumer]
      ({ todo := [10, 20] } : QState Nat)).done = true ∧
    (qRun [.parser, .consumer, .consumer] ({ todo := [10, 20] } : QState Nat)).got = [10] := by
  decide +kernel

end Rxls
