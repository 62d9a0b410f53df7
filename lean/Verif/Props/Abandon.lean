import Verif.Lemmas.Abandon

/-! # Property C110: leaving an XLSX sheet before its end -/

namespace Rxls

/-- C110, what the consumer has.  Under every schedule, the cells received are the first ones of the sheet, in order,
at most as many as wanted. -/
theorem C110_prefix {α : Type} (blocks : List (Bool × List α)) (want : Nat) (ts : List AThread) :
    (aRun ts { blocks := blocks, want := want }).got <+: blocks.flatMap Prod.snd ∧
    (aRun ts { blocks := blocks, want := want }).got.length ≤ want := by
  have h := aInv_run ts (aInv_start blocks want)
  refine ⟨?_, h.got_le⟩
  rw [← h.cells, AState.cells, List.append_assoc, List.append_assoc]
  exact List.prefix_append _ _

/-- C110, the thread ends.  Under every schedule, after `parserLeft` turns (for the whole sheet: one per cell, five per
block and five) the parser thread has ended, whatever the consumer does. -/
theorem C110_ends {α : Type} (ts : List AThread) : ∀ s : AState α, parserLeft s ≤ ts.count .parser →
    ∃ e, (aRun ts s).pc = .over e := by
  induction ts with
  | nil =>
    intro s h
    simp only [List.count_nil, Nat.le_zero_eq] at h
    cases hpc : s.pc <;> simp only [parserLeft, hpc] at h <;> first | omega | exact ⟨_, hpc⟩
  | cons t ts ih =>
    intro s h
    cases t with
    | parser =>
      apply ih
      show parserLeft ((parserStep s).getD s) ≤ _
      simp only [List.count_cons_self] at h
      cases hs : parserStep s with
      | some s' => have := (parserLeft_step hs).1; simp only [Option.getD_some]; omega
      | none =>
        have hz : parserLeft s = 0 := by
          cases hpc : s.pc with
          | over e => simp only [parserLeft, hpc]
          | emit l => cases l <;> simp [parserStep, hpc] at hs
          | check =>
            simp only [parserStep, hpc] at hs
            split at hs
            · cases hs
            · split at hs <;> cases hs
          | tell =>
            simp only [parserStep, hpc] at hs
            split at hs
            · split at hs <;> cases hs
            · cases hs
          | seek =>
            simp only [parserStep, hpc] at hs
            split at hs <;> cases hs
          | read =>
            simp only [parserStep, hpc] at hs
            split at hs <;> cases hs
          | leaving e => simp [parserStep, hpc] at hs
        simp only [Option.getD_none]
        omega
    | consumer =>
      apply ih
      show parserLeft ((consumerStep s).getD s) ≤ _
      have hc : ts.count .parser = (AThread.consumer :: ts).count .parser := by simp
      cases hs : consumerStep s with
      | some s' => rw [Option.getD_some, (consumer_left hs).1, hc]; exact h
      | none => rw [Option.getD_none, hc]; exact h

/-- C110, no deadlock.  Under every schedule, as long as the consumer has not left or the parser has not ended, one of
them can move. -/
theorem C110_no_deadlock {α : Type} (blocks : List (Bool × List α)) (want : Nat) (ts : List AThread)
    (hd : (aRun ts { blocks := blocks, want := want }).cpc ≠ .gone ∨
      ∀ e, (aRun ts { blocks := blocks, want := want }).pc ≠ .over e) :
    ∃ t s', aStep t (aRun ts { blocks := blocks, want := want }) = some s' := by
  have h := aInv_run ts (aInv_start blocks want)
  generalize aRun ts { blocks := blocks, want := want } = s at *
  cases hp : parserStep s with
  | some s' => exact ⟨.parser, s', hp⟩
  | none =>
    have ho : s.pc.isOver = true := by
      obtain ⟨e, he⟩ := C110_ends [] s (by
        by_contra hc
        simp only [List.count_nil, Nat.le_zero_eq] at hc
        have hex : ∃ e, (aRun (List.replicate (parserLeft s) .parser) s).pc = .over e :=
          C110_ends _ s (by simp)
        have hsame : ∀ n, aRun (List.replicate n .parser) s = s := by
          intro n
          induction n with
          | zero => rfl
          | succ n ih => simpa [List.replicate_succ, aRun, aStep, hp] using ih
        rw [hsame] at hex
        obtain ⟨e, he⟩ := hex
        simp [parserLeft, he] at hc)
      simp only [aRun] at he
      simp [he, APc.isOver]
    cases hcp : s.cpc with
    | gone =>
      exfalso
      rcases hd with hd | hd
      · exact hd hcp
      · cases hpc : s.pc with
        | over e => exact hd e hpc
        | _ => simp [hpc, APc.isOver] at ho
    | closing => exact ⟨.consumer, _, by simp only [aStep, consumerStep, hcp]; rfl⟩
    | taking =>
      obtain ⟨l, hl⟩ := h.queue hcp
      rw [ho] at hl
      simp only [if_true] at hl
      by_cases hw : s.got.length = s.want
      · exact ⟨.consumer, _, by simp only [aStep, consumerStep, hcp, hw, if_true]; rfl⟩
      · cases l with
        | nil => exact ⟨.consumer, { s with queue := [], file := false, cpc := .closing }, by
            simp [aStep, consumerStep, hcp, hw, hl]⟩
        | cons a l => exact ⟨.consumer, { s with queue := l.map some ++ [none], got := s.got ++ [a] }, by
            simp [aStep, consumerStep, hcp, hw, hl]⟩

/-- C110, termination.  Every step of either thread lowers a number: no schedule can keep the threads busy for ever. -/
theorem C110_terminates {α : Type} (t : AThread) (s s' : AState α) (hs : aStep t s = some s') :
    2 * parserLeft s' + s'.queue.length + consumerLeft s' < 2 * parserLeft s + s.queue.length + consumerLeft s := by
  cases t with
  | parser =>
    obtain ⟨h1, h2, h3⟩ := parserLeft_step hs
    have : consumerLeft s' = consumerLeft s := by simp only [consumerLeft, h3]
    omega
  | consumer =>
    obtain ⟨h1, _, h2⟩ := consumer_left hs
    omega

/-- C110, nothing more is parsed.  Once the consumer has left, no block is read any more. -/
theorem C110_unread {α : Type} (blocks : List (Bool × List α)) (want : Nat) (ts ts' : List AThread)
    (hg : (aRun ts { blocks := blocks, want := want }).cpc = .gone) :
    (aRun (ts ++ ts') { blocks := blocks, want := want }).blocks = (aRun ts { blocks := blocks, want := want }).blocks := by
  rw [aRun_append]
  have h := aInv_run ts (aInv_start blocks want)
  generalize aRun ts { blocks := blocks, want := want } = s at *
  have key : ∀ (ts' : List AThread) (s : AState α), s.closed = true → s.file = false → s.cpc = .gone →
      (aRun ts' s).blocks = s.blocks := by
    intro ts'
    induction ts' with
    | nil => intro s _ _ _; rfl
    | cons t ts' ih =>
      intro s hc hf hg
      cases t with
      | consumer =>
        have : aStep .consumer s = none := by simp only [aStep, consumerStep, hg]
        simp only [aRun, this, Option.getD_none]
        exact ih s hc hf hg
      | parser =>
        have : ∃ s', (aStep .parser s).getD s = s' ∧ s'.blocks = s.blocks ∧ s'.closed = true ∧ s'.file = false ∧
            s'.cpc = .gone := by
          refine ⟨_, rfl, ?_⟩
          cases hpc : s.pc with
          | emit l => cases l <;> simp [aStep, parserStep, hpc, hc, hf, hg]
          | _ => simp [aStep, parserStep, hpc, hc, hf, hg]
        obtain ⟨s', e, hb, h1, h2, h3⟩ := this
        simp only [aRun, e]
        rw [ih s' h1 h2 h3, hb]
  exact key ts' s (by simp [h.closed, hg]) (by simp [h.file, hg]) hg

/-- C110, reading to the end.  A consumer that wants more cells than the sheet has gets all of them, under every
schedule, and the parser thread ends without an error. -/
theorem C110_whole {α : Type} (blocks : List (Bool × List α)) (want : Nat)
    (hw : (blocks.flatMap Prod.snd).length < want) (ts : List AThread)
    (hg : (aRun ts { blocks := blocks, want := want }).cpc ≠ .taking) :
    (aRun ts { blocks := blocks, want := want }).got = blocks.flatMap Prod.snd ∧
    (aRun ts { blocks := blocks, want := want }).pc = .over none := by
  have key : ∀ (ts : List AThread) (s : AState α), AInv (blocks.flatMap Prod.snd) want s →
      (s.cpc ≠ .taking → s.got = blocks.flatMap Prod.snd ∧ s.pc = .over none) →
      ((aRun ts s).cpc ≠ .taking → (aRun ts s).got = blocks.flatMap Prod.snd ∧ (aRun ts s).pc = .over none) := by
    intro ts
    induction ts with
    | nil => intro s _ h; exact h
    | cons t ts ih =>
      intro s hi h
      refine ih _ (aInv_step hi t) ?_
      cases hs : aStep t s with
      | none => exact h
      | some s' =>
        simp only [Option.getD_some]
        intro hc
        cases t with
        | parser =>
          have hcpc : s'.cpc = s.cpc := (parserLeft_step hs).2.2
          obtain ⟨h1, h2⟩ := h (hcpc ▸ hc)
          simp [aStep, parserStep, h2] at hs
        | consumer =>
          cases hcp : s.cpc with
          | gone => simp [aStep, consumerStep, hcp] at hs
          | closing =>
            obtain ⟨h1, h2⟩ := h (by simp [hcp])
            simp only [aStep, consumerStep, hcp, Option.some.injEq] at hs
            subst hs
            exact ⟨h1, h2⟩
          | taking =>
            have hlen : s.got.length ≠ s.want := by
              rw [hi.want_eq]
              have := congrArg List.length hi.cells
              simp only [AState.cells, List.length_append] at this
              omega
            simp only [aStep, consumerStep, hcp, hlen, if_false] at hs
            obtain ⟨l, hl⟩ := hi.queue hcp
            cases l with
            | cons a l =>
              simp only [hl, List.map_cons, List.cons_append, Option.some.injEq] at hs
              subst hs
              exact absurd rfl hc
            | nil =>
              simp only [List.map_nil, List.nil_append] at hl
              cases hov : s.pc.isOver with
              | false => simp [hov] at hl; simp [hl] at hs
              | true =>
                rw [hov] at hl
                simp only [if_true] at hl
                simp only [hl, Option.some.injEq] at hs
                subst hs
                have hq := hi.quiet hcp
                cases hpc : s.pc with
                | over e =>
                  rw [hpc] at hq
                  simp only [APc.err] at hq
                  subst hq
                  refine ⟨?_, rfl⟩
                  have hb := hi.drained hcp (Or.inr hpc)
                  have := hi.cells
                  simpa [AState.cells, hl, hpc, hb, APc.cells] using this
                | _ => simp [hpc, APc.isOver] at hov
  exact key ts _ (aInv_start blocks want) (by simp) hg

/-- The errors that end the thread with a traceback. -/
theorem dropped_iff (n : String) (hn : n = "seek" ∨ n = "read" ∨ n = "tell") :
    dropped (noneAttr n) = decide (n = "tell") := by
  rcases hn with h | h | h <;> subst h <;> decide +kernel

/-- C110, quiet or not.  The consumer leaves, and no turn of the parser falls between the two assignments of `close`.  Then
the parser thread ends, and it ends with an error exactly if it was about to call `seek` or `read` of the underlying
file; the error is the `AttributeError` of `None`.  Missing: the turns between the two assignments
(`C110_window_finding`). -/
theorem C110_quiet_partial {α : Type} (blocks : List (Bool × List α)) (want : Nat) (ts ts' : List AThread)
    (hl : (aRun ts { blocks := blocks, want := want }).cpc = .taking)
    (hw : (aRun ts { blocks := blocks, want := want }).got.length = want)
    (hn : parserLeft (aRun ts { blocks := blocks, want := want }) ≤ ts'.count .parser) :
    (aRun (ts ++ .consumer :: .consumer :: ts') { blocks := blocks, want := want }).pc =
      .over (match (aRun ts { blocks := blocks, want := want }).pc with
        | .seek => some (noneAttr "seek")
        | .read => some (noneAttr "read")
        | _ => none) := by
  rw [aRun_append]
  have h := aInv_run ts (aInv_start blocks want)
  generalize aRun ts { blocks := blocks, want := want } = s at *
  have hw' : s.got.length = s.want := by rw [hw, h.want_eq]
  have e2 : aRun (.consumer :: .consumer :: ts') s =
      aRun ts' { s with file := false, closed := true, cpc := .gone } := by
    simp [aRun, aStep, consumerStep, hl, hw']
  rw [e2]
  obtain ⟨e, he⟩ := C110_ends ts' { s with file := false, closed := true, cpc := .gone }
    (by simpa only [parserLeft] using hn)
  rw [he]
  have key : ∀ (ts' : List AThread) (u : AState α), u.closed = true → u.file = false → u.cpc = .gone → ∀ e,
      (aRun ts' u).pc = .over e →
      e = match u.pc with
        | .seek => some (noneAttr "seek")
        | .read => some (noneAttr "read")
        | .leaving (some e) => if dropped e then none else some e
        | .over e => e
        | _ => none := by
    intro ts'
    induction ts' with
    | nil =>
      intro u _ _ _ e he
      simp only [aRun] at he
      simp [he]
    | cons t ts' ih =>
      intro u hc hf hg e he
      cases t with
      | consumer =>
        have : aStep .consumer u = none := by simp only [aStep, consumerStep, hg]
        simp only [aRun, this, Option.getD_none] at he
        exact ih u hc hf hg e he
      | parser =>
        have d1 := dropped_iff "seek" (by simp)
        have d2 := dropped_iff "read" (by simp)
        have d3 := dropped_iff "tell" (by simp)
        have d4 : dropped (.value "read from closed file.") = true := by decide +kernel
        simp only [aRun] at he
        cases hpc : u.pc with
        | emit l =>
          cases l with
          | nil =>
            have := ih _ (by simp [aStep, parserStep, hpc, hc]) (by simp [aStep, parserStep, hpc, hf])
              (by simp [aStep, parserStep, hpc, hg]) e he
            simpa [aStep, parserStep, hpc] using this
          | cons a l =>
            have := ih _ (by simp [aStep, parserStep, hpc, hc]) (by simp [aStep, parserStep, hpc, hf])
              (by simp [aStep, parserStep, hpc, hg]) e he
            simpa [aStep, parserStep, hpc] using this
        | leaving e0 =>
          have := ih _ (by simp [aStep, parserStep, hpc, hc]) (by simp [aStep, parserStep, hpc, hf])
              (by simp [aStep, parserStep, hpc, hg]) e he
          cases e0 <;> simpa [aStep, parserStep, hpc] using this
        | _ =>
          have := ih _ (by simp [aStep, parserStep, hpc, hc, hf]) (by simp [aStep, parserStep, hpc, hc, hf])
              (by simp [aStep, parserStep, hpc, hc, hf, hg]) e he
          simpa [aStep, parserStep, hpc, hc, hf, d1, d2, d3, d4] using this
  rw [key ts' _ rfl rfl rfl e he]
  have hq := h.quiet hl
  cases hpc : s.pc with
  | leaving e =>
    rw [hpc] at hq; simp only [APc.err] at hq; subst hq; rfl
  | over e =>
    rw [hpc] at hq; simp only [APc.err] at hq; subst hq; rfl
  | _ => rfl

/-- C110, finding.  A consumer that leaves while the parser is between two accesses to the file makes the parser thread
die with an `AttributeError` that no `except` clause expects (only `tell` is expected): Python prints a traceback. -/
theorem C110_traceback_finding :
    (aRun [.parser, .consumer, .consumer, .parser, .parser] { blocks := [(false, [1, 2])], want := 0 }).pc =
      .over (some (.attr "'NoneType' object has no attribute 'seek'")) ∧
    (aRun [.parser, .parser, .consumer, .consumer, .parser, .parser] { blocks := [(false, [1, 2])], want := 0 }).pc =
      .over (some (.attr "'NoneType' object has no attribute 'read'")) := by
  constructor <;> decide +kernel

/-- C110, finding.  The same in the time between the two assignments of `close`, wherever the parser was. -/
theorem C110_window_finding :
    (aRun [.consumer, .parser, .consumer, .parser, .parser] { blocks := [(false, [1, 2])], want := 0 }).pc =
      .over (some (.attr "'NoneType' object has no attribute 'seek'")) := by
  decide +kernel

/-- Two blocks, the consumer leaves after two cells of three: the second block is not read, the thread ends quietly. -/
example :
    let s := aRun [.parser, .parser, .parser, .parser, .parser, .parser, .consumer, .consumer, .consumer, .consumer,
      .parser, .parser, .parser, .parser, .parser] { blocks := [(false, [7, 8, 9]), (false, [10])], want := 2 }
    s.got = [7, 8] ∧ s.blocks = [(false, [10])] ∧ s.pc.err = none ∧ s.pc.isOver = true ∧ s.cpc = .gone := by
  decide +kernel

/-- Leaving during `tell`: quiet. -/
example :
    let s := aRun [.parser, .parser, .parser, .consumer, .consumer, .parser, .parser]
      { blocks := [(false, [7, 8, 9])], want := 0 }
    s.got = [] ∧ s.pc.err = none ∧ s.pc.isOver = true := by
  decide +kernel

/-- Reading to the end. -/
example :
    let s := aRun (List.replicate 16 .parser ++ List.replicate 6 .consumer)
      { blocks := [(false, [7, 8]), (true, [10])], want := 4 }
    s.got = [7, 8, 10] ∧ s.pc.err = none ∧ s.pc.isOver = true ∧ s.cpc = .gone := by
  decide +kernel

end Rxls
