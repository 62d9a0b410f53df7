import Verif.Model.Abandon
import Mathlib.Tactic.Common
import Mathlib.Data.List.Basic

/-! # Invariants of the two threads of `Model/Abandon` -/

namespace Rxls

/-- Cells the parser has parsed and not put yet. -/
def APc.cells {α : Type} : APc α → List α
  | .emit l => l
  | _ => []

/-- The thread has ended. -/
def APc.isOver {α : Type} : APc α → Bool
  | .over _ => true
  | _ => false

/-- The error of the parsing, if it has ended with one. -/
def APc.err {α : Type} : APc α → Option ReadErr
  | .leaving e => e
  | .over e => e
  | _ => none

/-- Every cell is somewhere. -/
def AState.cells {α : Type} (s : AState α) : List α :=
  s.got ++ s.queue.filterMap id ++ s.pc.cells ++ s.blocks.flatMap Prod.snd

/-- What holds in every state. -/
structure AInv {α : Type} (all : List α) (want : Nat) (s : AState α) : Prop where
  cells : s.cells = all
  want_eq : s.want = want
  got_le : s.got.length ≤ want
  file : s.file = decide (s.cpc = .taking)
  closed : s.closed = decide (s.cpc = .gone)
  queue : s.cpc = .taking → ∃ l : List α, s.queue = l.map some ++ (if s.pc.isOver then [none] else [])
  quiet : s.cpc = .taking → s.pc.err = none
  drained : s.cpc = .taking → (s.pc = .leaving none ∨ s.pc = .over none) → s.blocks = []

theorem aInv_start {α : Type} (blocks : List (Bool × List α)) (want : Nat) :
    AInv (blocks.flatMap Prod.snd) want { blocks := blocks, want := want } where
  cells := by simp [AState.cells, APc.cells]
  want_eq := rfl
  got_le := by simp
  file := by simp
  closed := by simp
  queue := fun _ => ⟨[], by simp [APc.isOver]⟩
  quiet := fun _ => rfl
  drained := fun _ h => by rcases h with h | h <;> simp at h

theorem aInv_parser {α : Type} {all : List α} {want : Nat} {s s' : AState α} (h : AInv all want s)
    (hs : parserStep s = some s') : AInv all want s' := by
  obtain ⟨h1, h2, h3, h4, h5, h6, h7, h8⟩ := h
  obtain ⟨blocks, w, pc, cpc, file, closed, queue, got⟩ := s
  simp only at h2 h3 h4 h5 h6 h7 h8
  simp only [AState.cells] at h1
  unfold parserStep at hs
  simp only at hs
  cases pc with
  | check =>
    simp only at hs
    split at hs
    · rename_i hc
      cases hs
      refine ⟨by simpa [AState.cells, APc.cells] using h1, h2, h3, h4, h5, ?_, ?_, ?_⟩
      · intro ht
        simpa [APc.isOver] using h6 ht
      · intro ht
        simp_all
      · intro ht
        simp_all
    · split at hs
      · cases hs
        exact ⟨by simpa [AState.cells, APc.cells] using h1, h2, h3, h4, h5,
          fun ht => by simpa [APc.isOver] using h6 ht, fun _ => rfl, fun _ _ => rfl⟩
      · cases hs
        exact ⟨by simpa [AState.cells, APc.cells] using h1, h2, h3, h4, h5,
          fun ht => by simpa [APc.isOver] using h6 ht, fun _ => rfl, fun _ h => by rcases h with h | h <;> simp at h⟩
      · cases hs
        exact ⟨by simpa [AState.cells, APc.cells] using h1, h2, h3, h4, h5,
          fun ht => by simpa [APc.isOver] using h6 ht, fun _ => rfl, fun _ h => by rcases h with h | h <;> simp at h⟩
  | seek =>
    simp only at hs
    split at hs <;> cases hs
    · exact ⟨by simpa [AState.cells, APc.cells] using h1, h2, h3, h4, h5,
        fun ht => by simpa [APc.isOver] using h6 ht, fun _ => rfl, fun _ h => by rcases h with h | h <;> simp at h⟩
    · exact ⟨by simpa [AState.cells, APc.cells] using h1, h2, h3, h4, h5,
        fun ht => by simpa [APc.isOver] using h6 ht, fun _ => by simp_all, fun _ h => by simp_all⟩
  | read =>
    simp only at hs
    split at hs <;> cases hs
    · exact ⟨by simpa [AState.cells, APc.cells] using h1, h2, h3, h4, h5,
        fun ht => by simpa [APc.isOver] using h6 ht, fun _ => rfl, fun _ h => by rcases h with h | h <;> simp at h⟩
    · exact ⟨by simpa [AState.cells, APc.cells] using h1, h2, h3, h4, h5,
        fun ht => by simpa [APc.isOver] using h6 ht, fun _ => by simp_all, fun _ h => by simp_all⟩
  | tell =>
    simp only at hs
    split at hs
    · split at hs <;> cases hs
      · exact ⟨by simpa [AState.cells, APc.cells] using h1, h2, h3, h4, h5,
          fun ht => by simpa [APc.isOver] using h6 ht, fun _ => rfl, fun _ _ => rfl⟩
      · exact ⟨by simpa [AState.cells, APc.cells] using h1, h2, h3, h4, h5,
          fun ht => by simpa [APc.isOver] using h6 ht, fun _ => rfl, fun _ h => by rcases h with h | h <;> simp at h⟩
    · cases hs
      exact ⟨by simpa [AState.cells, APc.cells] using h1, h2, h3, h4, h5,
        fun ht => by simpa [APc.isOver] using h6 ht, fun _ => by simp_all, fun _ h => by simp_all⟩
  | emit l =>
    cases l with
    | nil =>
      cases hs
      exact ⟨by simpa [AState.cells, APc.cells] using h1, h2, h3, h4, h5,
        fun ht => by simpa [APc.isOver] using h6 ht, fun _ => rfl, fun _ h => by rcases h with h | h <;> simp at h⟩
    | cons a l =>
      cases hs
      refine ⟨by simpa [AState.cells, APc.cells] using h1, h2, h3, h4, h5, fun ht => ?_, fun _ => rfl,
        fun _ h => by rcases h with h | h <;> simp at h⟩
      obtain ⟨q, hq⟩ := h6 ht
      refine ⟨q ++ [a], ?_⟩
      simp only [APc.isOver, Bool.false_eq_true, if_false, List.append_nil] at hq ⊢
      simp [hq]
  | leaving e =>
    cases hs
    refine ⟨by simpa [AState.cells, APc.cells] using h1, h2, h3, h4, h5, fun ht => ?_, fun ht => ?_, fun ht hh => ?_⟩
    · obtain ⟨q, hq⟩ := h6 ht
      refine ⟨q, ?_⟩
      simp only [APc.isOver, Bool.false_eq_true, if_false, List.append_nil] at hq
      simp [hq, APc.isOver]
    · have := h7 ht
      simp only [APc.err] at this
      subst this
      rfl
    · have := h7 ht
      simp only [APc.err] at this
      subst this
      exact h8 ht (Or.inl rfl)
  | over e => cases hs

theorem aInv_consumer {α : Type} {all : List α} {want : Nat} {s s' : AState α} (h : AInv all want s)
    (hs : consumerStep s = some s') : AInv all want s' := by
  obtain ⟨h1, h2, h3, h4, h5, h6, h7, h8⟩ := h
  obtain ⟨blocks, w, pc, cpc, file, closed, queue, got⟩ := s
  simp only at h2 h3 h4 h5 h6 h7 h8
  simp only [AState.cells] at h1
  unfold consumerStep at hs
  simp only at hs
  subst h2
  cases cpc with
  | taking =>
    simp only at hs
    split at hs
    · cases hs
      exact ⟨h1, rfl, h3, by simp, by simpa using h5, by simp, by simp, by simp⟩
    · rename_i hw
      split at hs
      · cases hs
      · rename_i a q
        cases hs
        refine ⟨by simpa [AState.cells] using h1, rfl, by simp only [List.length_append, List.length_singleton]; omega,
          h4, h5, fun _ => ?_, h7, h8⟩
        obtain ⟨l, hl⟩ := h6 rfl
        cases l with
        | nil =>
          simp only [List.map_nil, List.nil_append] at hl
          split at hl <;> simp at hl
        | cons b l =>
          simp only [List.map_cons, List.cons_append, List.cons.injEq, Option.some.injEq] at hl
          exact ⟨l, hl.2⟩
      · cases hs
        exact ⟨by simpa [AState.cells] using h1, rfl, h3, by simp, by simpa using h5, by simp, by simp, by simp⟩
  | closing =>
    cases hs
    exact ⟨h1, rfl, h3, by simpa using h4, by simp, by simp, by simp, by simp⟩
  | gone => cases hs

theorem aInv_step {α : Type} {all : List α} {want : Nat} {s : AState α} (h : AInv all want s) (t : AThread) :
    AInv all want ((aStep t s).getD s) := by
  cases hs : aStep t s with
  | none => exact h
  | some s' =>
    cases t with
    | parser => exact aInv_parser h hs
    | consumer => exact aInv_consumer h hs

theorem aInv_run {α : Type} {all : List α} {want : Nat} (ts : List AThread) : ∀ {s : AState α}, AInv all want s →
    AInv all want (aRun ts s) := by
  induction ts with
  | nil => intro s h; exact h
  | cons t ts ih => intro s h; exact ih (aInv_step h t)

theorem aRun_append {α : Type} (ts ts' : List AThread) : ∀ s : AState α, aRun (ts ++ ts') s = aRun ts' (aRun ts s) := by
  induction ts with
  | nil => intro s; rfl
  | cons t ts ih => intro s; exact ih _

/-- Turns the parser may still take: for the whole sheet, one per cell, five per block, and five. -/
def parserLeft {α : Type} (s : AState α) : Nat :=
  match s.pc with
  | .check => (s.blocks.map fun b => b.2.length + 5).sum + 5
  | .seek => (s.blocks.map fun b => b.2.length + 5).sum + 4
  | .read => (s.blocks.map fun b => b.2.length + 5).sum + 3
  | .tell => (s.blocks.map fun b => b.2.length + 5).sum + 2
  | .emit l => (s.blocks.map fun b => b.2.length + 5).sum + l.length + 6
  | .leaving _ => 1
  | .over _ => 0

/-- Turns the consumer may still take besides those at the queue. -/
def consumerLeft {α : Type} (s : AState α) : Nat :=
  match s.cpc with
  | .taking => 2
  | .closing => 1
  | .gone => 0

theorem parserLeft_step {α : Type} {s s' : AState α} (hs : parserStep s = some s') :
    parserLeft s' < parserLeft s ∧ s'.queue.length ≤ s.queue.length + 1 ∧ s'.cpc = s.cpc := by
  obtain ⟨blocks, w, pc, cpc, file, closed, queue, got⟩ := s
  unfold parserStep at hs
  simp only at hs
  cases pc with
  | check =>
    simp only at hs
    split at hs
    · cases hs
      simp [parserLeft]
    · split at hs <;> cases hs <;> simp [parserLeft] <;> omega
  | seek =>
    simp only at hs
    split at hs <;> cases hs <;> simp [parserLeft]
  | read =>
    simp only at hs
    split at hs <;> cases hs <;> simp [parserLeft]
  | tell =>
    simp only at hs
    split at hs
    · split at hs <;> cases hs <;> simp [parserLeft] <;> omega
    · cases hs; simp [parserLeft]
  | emit l =>
    cases l <;> (cases hs; simp [parserLeft])
  | leaving e => cases hs; simp [parserLeft]
  | over e => cases hs

theorem consumer_left {α : Type} {s s' : AState α} (hs : consumerStep s = some s') :
    parserLeft s' = parserLeft s ∧ s'.pc = s.pc ∧ s'.queue.length + consumerLeft s' < s.queue.length + consumerLeft s := by
  obtain ⟨blocks, w, pc, cpc, file, closed, queue, got⟩ := s
  unfold consumerStep at hs
  simp only at hs
  cases cpc with
  | taking =>
    simp only at hs
    split at hs
    · cases hs; simp [parserLeft, consumerLeft]
    · split at hs
      · cases hs
      · cases hs; simp [parserLeft, consumerLeft]
      · cases hs; simp [parserLeft, consumerLeft]
  | closing => cases hs; simp [parserLeft, consumerLeft]
  | gone => cases hs

end Rxls
