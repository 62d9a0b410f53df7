import Verif.Lemmas.Tagged
import Verif.Lemmas.ReadConcat

/-! # Materialising a column, run by run -/

namespace Rxls

/-- The cells of a chunk; those of a null chunk are no cells. -/
def ACh.held (a : ACh) : List (Option (Option Val)) := a.cells.map fun v => if a.cls = .null then none else some v

/-- Chunks as `ACh`, with the numbers of their runs. -/
inductive ATag : Nat → List ACh → List (Option (Nat × Option Val)) → Prop where
  | nil {b} : ATag b [] []
  | cons {b a as j rest} : b ≤ j → ATag (j + 1) as rest → ATag b (a :: as) (inRun a.cls j a.cells ++ rest)

theorem Tagged.atag {P} {b : Nat} {cs rows} (h : Tagged P b cs rows) {as : List ACh} (ha : List.Forall₂ Abs cs as) :
    ATag b as rows := by
  induction h generalizing as with
  | nil => cases ha; exact .nil
  | cons h1 h2 _ _ ih =>
    cases ha with
    | cons g1 g2 =>
      obtain ⟨a, h3, rfl, rfl⟩ := h1.1.abs
      rw [Abs.unique h3 g1]
      exact .cons h2 (ih g2)

theorem heldCells_run (a : ACh) (j : Nat) : heldCells (inRun a.cls j a.cells) = a.cells := by
  cases a with
  | nul n => simp [heldCells, heldRow, ACh.cells, ACh.cls]
  | _ => simp [heldCells, heldRow, ACh.cells, ACh.cls, Function.comp_def]

theorem held_run (a : ACh) (j : Nat) : (inRun a.cls j a.cells).map (Option.map (·.2)) = a.held := by
  unfold ACh.held
  rw [List.map_map]
  apply List.map_congr_left
  intro x _
  simp only [Function.comp, heldRow]
  split <;> rfl

theorem held_join (a : ACh) : a.held.map Option.join = a.cells := by
  cases a with
  | nul n => simp [ACh.held, ACh.cells, ACh.cls]
  | _ => simp [ACh.held, ACh.cells, ACh.cls, Function.comp_def]

theorem ATag.plain {b : Nat} {as rows} (h : ATag b as rows) : heldCells rows = as.flatMap ACh.cells := by
  induction h with
  | nil => rfl
  | @cons b a as j rest _ _ ih =>
    rw [List.flatMap_cons, ← ih, heldCells, List.map_append]
    congr 1
    exact heldCells_run a j

theorem ATag.held {b : Nat} {as rows} (h : ATag b as rows) : rows.map (Option.map (·.2)) = as.flatMap ACh.held := by
  induction h with
  | nil => rfl
  | @cons b a as j rest _ _ ih => rw [List.flatMap_cons, ← ih, List.map_append, held_run]

theorem mem_inRun {i j : Nat} {k : Cls} {v : Option Val} {vs : List (Option Val)} :
    some (i, v) ∈ inRun k j vs ↔ k ≠ .null ∧ i = j ∧ v ∈ vs := by
  rw [List.mem_map]
  unfold heldRow
  constructor
  · rintro ⟨x, hx, e⟩
    split at e
    · simp at e
    · rename_i hk
      simp only [Option.some.injEq, Prod.mk.injEq] at e
      exact ⟨hk, e.1.symm, by rw [← e.2]; exact hx⟩
  · rintro ⟨hk, rfl, h⟩
    exact ⟨v, h, by rw [if_neg hk]⟩

theorem mem_run {i j : Nat} {a : ACh} {v : Val} :
    some (i, some v) ∈ inRun a.cls j a.cells ↔ i = j ∧ some v ∈ a.cells := by
  rw [mem_inRun]
  constructor
  · exact fun h => h.2
  · rintro ⟨h1, h2⟩
    refine ⟨?_, h1, h2⟩
    intro hk
    cases a <;> simp_all [ACh.cls, ACh.cells]

theorem ATag.ge {b : Nat} {as rows} (h : ATag b as rows) {i : Nat} {v : Option Val} (hm : some (i, v) ∈ rows) : b ≤ i := by
  induction h with
  | nil => simp at hm
  | cons h1 _ ih =>
    rcases List.mem_append.mp hm with hm | hm
    · rw [(mem_inRun.mp hm).2.1]; exact h1
    · have := ih hm; omega

theorem run_map (a : ACh) (j : Nat) (f : Nat × Option Val → Option Val) :
    (inRun a.cls j a.cells).map (Option.map f) = a.held.map (Option.map fun v => f (j, v)) := by
  unfold ACh.held
  rw [List.map_map, List.map_map]
  apply List.map_congr_left
  intro x _
  simp only [Function.comp, heldRow]
  split <;> rfl

theorem ATag.map {b : Nat} {as rows} (h : ATag b as rows) (g : ACh → ACh) (f : Nat × Option Val → Option Val)
    (hg : ∀ a ∈ as, ∀ j, b ≤ j → (∀ v : Option Val, some (j, v) ∈ rows ↔ a.cls ≠ .null ∧ v ∈ a.cells) →
      (g a).held = a.held.map (Option.map fun v => f (j, v))) :
    (as.map g).flatMap ACh.held = rows.map (Option.map f) := by
  induction h with
  | nil => rfl
  | @cons b a as j rest h1 h2 ih =>
    rw [List.map_cons, List.flatMap_cons, List.map_append, hg a (by simp) j h1]
    · rw [ih]
      · rw [run_map]
      · intro c hc i hi hiff
        refine hg c (by simp [hc]) i (by omega) fun v => ?_
        rw [List.mem_append, mem_inRun, ← hiff v]
        constructor
        · rintro (⟨_, rfl, _⟩ | h)
          · omega
          · exact h
        · exact .inr
    · intro v
      rw [List.mem_append, mem_inRun]
      constructor
      · rintro (⟨h, _, h'⟩ | h)
        · exact ⟨h, h'⟩
        · have := h2.ge h; omega
      · exact fun h => .inl ⟨h.1, rfl, h.2⟩

theorem runHeld_mem {rows : List (Option (Nat × Option Val))} {j : Nat} {v : Option Val} :
    v ∈ runHeld rows j ↔ some (j, v) ∈ rows := by
  unfold runHeld
  simp only [List.mem_map, List.mem_filter, beq_iff_eq, List.reduceOption_mem_iff]
  constructor
  · rintro ⟨⟨i, w⟩, ⟨h1, h2⟩, rfl⟩
    simp only at h2
    rw [← h2]; exact h1
  · intro h
    exact ⟨(j, v), ⟨h, rfl⟩, rfl⟩

theorem heldUpTo_mem {rows : List (Option (Nat × Option Val))} {j : Nat} {v : Option Val} :
    v ∈ heldUpTo rows j ↔ ∃ i, i ≤ j ∧ some (i, v) ∈ rows := by
  unfold heldUpTo
  simp only [List.mem_map, List.mem_filter, decide_eq_true_eq, List.reduceOption_mem_iff]
  constructor
  · rintro ⟨⟨i, w⟩, ⟨h1, h2⟩, rfl⟩
    exact ⟨i, h2, h1⟩
  · rintro ⟨i, hi, h⟩
    exact ⟨(i, v), ⟨h, hi⟩, rfl⟩

theorem runCells_mem {rows : List (Option (Nat × Val))} {j : Nat} {v : Val} :
    some v ∈ runCells rows j ↔ some (j, v) ∈ rows := by
  unfold runCells plainCells
  rw [List.mem_map]
  constructor
  · rintro ⟨x, hx, e⟩
    rw [List.mem_filter] at hx
    cases x with
    | none => simp at e
    | some x =>
      obtain ⟨i, w⟩ := x
      simp only [Option.map_some, Option.some.injEq] at e
      simp only [Option.any_some, beq_iff_eq] at hx
      rw [← e, ← hx.2]; exact hx.1
  · intro h
    exact ⟨some (j, v), List.mem_filter.mpr ⟨h, by simp⟩, rfl⟩

theorem cellsUpTo_mem {rows : List (Option (Nat × Val))} {j : Nat} {v : Val} :
    some v ∈ cellsUpTo rows j ↔ ∃ i, i ≤ j ∧ some (i, v) ∈ rows := by
  unfold cellsUpTo plainCells
  rw [List.mem_map]
  constructor
  · rintro ⟨x, hx, e⟩
    rw [List.mem_filter] at hx
    cases x with
    | none => simp at e
    | some x =>
      obtain ⟨i, w⟩ := x
      simp only [Option.map_some, Option.some.injEq] at e
      simp only [Option.any_some, decide_eq_true_eq] at hx
      exact ⟨i, hx.2, by rw [← e]; exact hx.1⟩
  · rintro ⟨i, hi, h⟩
    exact ⟨some (i, v), List.mem_filter.mpr ⟨h, by simpa using hi⟩, rfl⟩

theorem momentTexts_congr (env : Env) (o : ConcatOpts) {l r : List (Option Val)} (h : ∀ v, some v ∈ l ↔ some v ∈ r) :
    momentTexts env o l = momentTexts env o r := by
  rw [Bool.eq_iff_iff, momentTexts_mem, momentTexts_mem]
  exact ⟨fun g s hs => g s ((h _).mpr hs), fun g s hs => g s ((h _).mp hs)⟩

theorem numericTexts_congr (env : Env) {l r : List (Option Val)} (h : ∀ v, some v ∈ l ↔ some v ∈ r) :
    numericTexts env l = numericTexts env r := by
  rw [Bool.eq_iff_iff, numericTexts_mem, numericTexts_mem]
  exact ⟨fun g s hs => g s ((h _).mpr hs), fun g s hs => g s ((h _).mp hs)⟩

theorem asMoment_congr (env : Env) (o : ConcatOpts) {l r : List (Option Val)} (h : ∀ v, some v ∈ l ↔ some v ∈ r) :
    asMoment env o l = asMoment env o r := by
  funext v
  cases v with
  | str s => simp only [asMoment, momentTexts_congr env o h, numericTexts_congr env h]
  | _ => rfl

/-- A run with its values turned into moments, given the cells of the run. -/
def aToTmpH (env : Env) (o : ConcatOpts) (cells : List (Option Val)) : ACh → ACh
  | .num l => .tmp (l.map f8ToMsWin)
  | .str l r =>
    if heldMoments env o cells then .tmp (l.map fun s => (match s with
      | some s => textMoment env o s
      | none => missingMoment env o).getD 0)
    else if o.confNum && numericTexts env cells then
      .tmp ((l.map fun s => (s.bind env.parseF8).getD (.fin 0)).map f8ToMsWin)
    else .str l r
  | a => a

theorem aToTmpH_cells (env : Env) (o : ConcatOpts) (cells : List (Option Val)) (a : ACh) (hn : a.cls ≠ .null) :
    (aToTmpH env o cells a).cells = a.cells.map (heldMoment env o cells) := by
  cases a with
  | nul n => exact absurd rfl hn
  | str l r =>
    unfold aToTmpH
    split_ifs with h1 h2
    · simp only [ACh.cells, List.map_map]
      apply List.map_congr_left
      intro x _
      cases x <;> simp [heldMoment, h1]
    · simp only [ACh.cells, List.map_map]
      apply List.map_congr_left
      intro x _
      cases x <;> simp [heldMoment, h1, h2]
    · simp only [ACh.cells, List.map_map]
      apply List.map_congr_left
      intro x _
      cases x <;> simp [heldMoment, h1, h2]
  | num l => simp [aToTmpH, ACh.cells, heldMoment, Function.comp_def]
  | tmp l => simp [aToTmpH, ACh.cells, heldMoment, Function.comp_def]

/-- The texts of the run are turned into moments. -/
def tmpOkH (env : Env) (o : ConcatOpts) (cells : List (Option Val)) : Bool :=
  heldMoments env o cells || (o.confNum && numericTexts env cells)

theorem mfElem_missing (env : Env) (o : ConcatOpts) :
    mfElem env.strptime (if o.formats = [] then env.formats else o.formats) none = (missingMoment env o).getD 0 := by
  rw [mfElem_usable]; rfl

theorem missingMoment_ne {env : Env} {o : ConcatOpts} {v : Int} (h : missingMoment env o = some v) : v ≠ 0 := by
  unfold missingMoment at h
  obtain ⟨f, _, hf⟩ := List.exists_of_findSome?_eq_some h
  cases hs : env.strptime f none with
  | none => rw [hs] at hf; simp at hf
  | some w =>
    rw [hs] at hf
    simp only [Option.bind_some] at hf
    split at hf
    · simp at hf
    · injection hf with hf; subst hf; assumption

/-- A run of texts beside moments. -/
theorem aStrTmp_run (env : Env) (o : ConcatOpts) (a : ACh) (hraw : ∀ l, a ≠ .str l true) :
    aStrTmp env o (aNumTmp a) = .ok (aToTmpH env o a.cells a, (a.cls == .utf8) && !tmpOkH env o a.cells) := by
  cases a with
  | nul n => rfl
  | num l => rfl
  | tmp l => rfl
  | str l raw =>
    cases raw with
    | true => exact absurd rfl (hraw l)
    | false =>
      have hmem : ∀ s, some (Val.str s) ∈ (ACh.str l false).cells ↔ some s ∈ l := by
        intro s
        simp only [ACh.cells, List.mem_map]
        constructor
        · rintro ⟨x, hx, e⟩
          cases x with
          | none => simp at e
          | some x => simp only [Option.map_some, Option.some.injEq, Val.str.injEq] at e; rw [← e]; exact hx
        · intro h; exact ⟨_, h, rfl⟩
      have hnone : none ∈ (ACh.str l false).cells ↔ none ∈ l := by
        simp only [ACh.cells, List.mem_map]
        constructor
        · rintro ⟨x, hx, e⟩
          cases x with
          | none => exact hx
          | some x => simp at e
        · intro h; exact ⟨_, h, rfl⟩
      simp only [aNumTmp, aStrTmp, Bool.false_eq_true, if_false]
      rw [mfStrptime_any]
      have hcls : ((ACh.str l false).cls == .utf8) = true := rfl
      simp only [hcls, Bool.true_and]
      by_cases hM : heldMoments env o (ACh.str l false).cells = true
      · have hM' := hM
        unfold heldMoments at hM'
        rw [Bool.and_eq_true, Bool.or_eq_true] at hM'
        have hall := momentTexts_mem.mp hM'.1
        rw [if_neg]
        · simp only [aToTmpH, hM, if_true, tmpOkH, Bool.true_or, Bool.not_true]
          congr 2
          congr 1
          apply List.map_congr_left
          intro x hx
          cases x with
          | some s => exact mfElem_text env o s
          | none => exact mfElem_missing env o
        · simp only [List.any_map, List.any_eq_true, Function.comp, decide_eq_true_eq, not_exists, not_and]
          intro x hx
          cases x with
          | some s =>
            rw [mfElem_text]
            obtain ⟨v, hv⟩ := Option.isSome_iff_exists.mp (hall s ((hmem s).mpr hx))
            rw [hv]
            exact textMoment_ne hv
          | none =>
            rw [mfElem_missing]
            rcases hM'.2 with h | h
            · have := List.all_eq_true.mp h _ (hnone.mpr hx)
              simp at this
            · obtain ⟨v, hv⟩ := Option.isSome_iff_exists.mp h
              rw [hv]
              exact missingMoment_ne hv
      · rw [if_pos]
        · simp only [Bool.not_eq_true] at hM
          simp only [aToTmpH, tmpOkH, hM, Bool.false_or, Bool.false_eq_true, if_false]
          cases hc : o.confNum with
          | false => rfl
          | true =>
            simp only [if_true, Bool.true_and]
            have hcell : (ACh.str l false).cells = l.map (Option.map Val.str) := rfl
            rw [hcell]
            rcases aNumeric_texts env l with ⟨xs, h1, h2, h3⟩ | ⟨e, h1, h2⟩
            · rw [h1, h2, h3]
              simp only [if_true, Bool.not_true]
              congr 3
              congr 1
              rw [List.map_map]
              apply List.map_congr_left
              intro x hx
              cases x <;> rfl
            · rw [h1, h2]; rfl
        · unfold heldMoments at hM
          simp only [List.any_map, List.any_eq_true, Function.comp, decide_eq_true_eq]
          rw [Bool.and_eq_true, Bool.or_eq_true, not_and_or, not_or] at hM
          rcases hM with hM | ⟨h1, h2⟩
          · rw [momentTexts_mem] at hM
            simp only [not_forall, Bool.not_eq_true, Option.isSome_eq_false_iff, Option.isNone_iff_eq_none] at hM
            obtain ⟨s, hs, hs2⟩ := hM
            refine ⟨_, (hmem s).mp hs, ?_⟩
            rw [mfElem_text, hs2]
            rfl
          · rw [List.all_eq_true] at h1
            simp only [not_forall, Bool.not_eq_true, Option.isSome_eq_false_iff, Option.isNone_iff_eq_none] at h1
            obtain ⟨x, hx, rfl⟩ := h1
            refine ⟨_, hnone.mp hx, ?_⟩
            rw [mfElem_missing]
            simp only [Bool.not_eq_true, Option.isSome_eq_false_iff, Option.isNone_iff_eq_none] at h2
            rw [h2]
            rfl

theorem strTmp_runs (env : Env) (o : ConcatOpts) : ∀ as : List ACh,
    (∀ a ∈ as, aStrTmp env o (aNumTmp a) = .ok (aToTmpH env o a.cells a, (a.cls == .utf8) && !tmpOkH env o a.cells)) →
    mapPy (aStrTmp env o) (as.map aNumTmp) =
      .ok (as.map fun a => (aToTmpH env o a.cells a, (a.cls == .utf8) && !tmpOkH env o a.cells))
  | [], _ => rfl
  | a :: as, h => by
    have ih := strTmp_runs env o as fun a ha => h a (by simp [ha])
    rw [List.map_cons, mapPy, ih, h a (by simp)]
    rfl

theorem aConcat_default_held (env : Env) (o : ConcatOpts) (hd : o.confDt = false) (hc : o.confNum = false)
    (as : List ACh) (hne : as ≠ []) (hcells : ∀ a ∈ as, a.cells ≠ []) :
    aConcat env o as = .ok ⟨heldType o.prec (as.flatMap ACh.held),
      (as.flatMap ACh.held).map fun c => c.join.map (rendered env (heldType o.prec (as.flatMap ACh.held)))⟩ := by
  have hj : (as.flatMap ACh.held).map Option.join = as.flatMap ACh.cells := by
    rw [List.map_flatMap]
    simp only [held_join]
  have hjm : ∀ dt, (as.flatMap ACh.held).map (fun c => c.join.map (rendered env dt)) =
      (as.flatMap ACh.cells).map (Option.map (rendered env dt)) := by
    intro dt
    rw [← hj, List.map_map]
    rfl
  have hmiss : ∀ a : ACh, a.held.any isMissing = !a.full := by
    intro a
    cases a with
    | nul n => simp [ACh.held, ACh.cls, ACh.full, ACh.cells, isMissing]
    | num l => simp [ACh.held, ACh.cls, ACh.full, ACh.cells, isMissing, Function.comp_def]
    | tmp l => simp [ACh.held, ACh.cls, ACh.full, ACh.cells, isMissing, Function.comp_def]
    | str l r =>
      have : ∀ l : List (Option Str), (ACh.str l r).held.any isMissing = !(ACh.str l r).full := by
        intro l
        induction l with
        | nil => rfl
        | cons x l ih =>
          have e : (ACh.str (x :: l) r).held = some (x.map Val.str) :: (ACh.str l r).held := rfl
          have e2 : (ACh.str (x :: l) r).full = (x.isSome && (ACh.str l r).full) := rfl
          rw [e, e2, List.any_cons, ih]
          cases x <;> simp [isMissing]
      exact this l
  rw [hjm]
  by_cases hm : (as.flatMap ACh.held).any isMissing = true
  · have hty : heldType o.prec (as.flatMap ACh.held) = .utf8 := if_pos hm
    rw [hty]
    have hS : (as.any fun a => a.cls == .utf8) = true := by
      rw [List.any_flatMap, List.any_eq_true] at hm
      obtain ⟨a, ha, h⟩ := hm
      rw [hmiss] at h
      rw [List.any_eq_true]
      refine ⟨a, ha, ?_⟩
      cases a <;> simp_all [ACh.full, ACh.cls]
    have hu : ∀ v : Val, castVal env .utf8 v = .ok (rendered env .utf8 v) := by intro v; cases v <;> rfl
    have hemp : (as.map fun a => a.cells.map (Option.map (rendered env .utf8))).isEmpty = false := by
      cases as with
      | nil => exact absurd rfl hne
      | cons => rfl
    have hflat : (as.map fun a => a.cells.map (Option.map (rendered env .utf8))).flatten =
        (as.flatMap ACh.cells).map (Option.map (rendered env .utf8)) := by
      rw [List.map_flatMap]
      rfl
    unfold aConcat aConvert
    simp only [hd, hc, hS]
    cases hT : (as.any fun a => a.cls == .temp) <;> cases hN : (as.any fun a => a.cls == .nums) <;>
      simp only [Bool.false_eq_true, if_false, if_true, Bool.and_true, Bool.and_false, Bool.false_and,
        Bool.and_self, Bool.or_self, Bool.or_true, Bool.or_false, aType] <;>
      (rw [mapPy_rendered env .utf8 as fun v _ => hu v]; simp only [hemp, hflat]; rfl)
  · have hty : heldType o.prec (as.flatMap ACh.held) = columnType o.prec (as.flatMap ACh.cells) := by
      rw [heldType, if_neg hm, hj]
    rw [hty]
    refine aConcat_default env o hd hc as hne hcells fun a ha => ?_
    cases hf : a.full with
    | true => rfl
    | false =>
      refine absurd ?_ hm
      rw [List.any_flatMap, List.any_eq_true]
      exact ⟨a, ha, by rw [hmiss, hf]; rfl⟩

theorem aToNum_held (env : Env) (a : ACh) :
    (aToNum env a).held = a.held.map (Option.map fun v => some (heldNumber env v)) := by
  cases a with
  | str l r =>
    simp only [aToNum, ACh.held, ACh.cells, ACh.cls, List.map_map]
    apply List.map_congr_left
    intro x hx
    cases x with
    | none => rfl
    | some x => rfl
  | nul n => simp [aToNum, ACh.held, ACh.cells, ACh.cls]
  | _ => simp [aToNum, ACh.held, ACh.cells, ACh.cls, asNumber, heldNumber, Function.comp_def]

/-- What numeric resolution leaves. -/
structure NumLoop (env : Env) (as : List ACh) (rows : List (Option (Nat × Option Val))) : Prop where
  cells : (aNumLoop env as).1.flatMap ACh.held =
    rows.map (Option.map fun r => if numericTexts env (heldUpTo rows r.1) then some (heldNumber env r.2) else r.2)
  flag : (aNumLoop env as).2 = (aNumLoop env as).1.any fun a => a.cls == .utf8
  temp : ((aNumLoop env as).1.any fun a => a.cls == .temp) = as.any fun a => a.cls == .temp
  nums : (as.any fun a => a.cls == .nums) = true → ((aNumLoop env as).1.any fun a => a.cls == .nums) = true
  some : ∀ a ∈ (aNumLoop env as).1, a.cells ≠ []

theorem numericTexts_append (env : Env) (l r : List (Option Val)) :
    numericTexts env (l ++ r) = (numericTexts env l && numericTexts env r) := by
  unfold numericTexts; rw [List.all_append]

theorem heldUpTo_head {a : ACh} {j : Nat} {rest as} (h : ATag (j + 1) as rest) (env : Env) :
    numericTexts env (heldUpTo (inRun a.cls j a.cells ++ rest) j) = numericTexts env a.cells := by
  refine numericTexts_congr env fun v => ?_
  rw [heldUpTo_mem]
  constructor
  · rintro ⟨i, hi, hm⟩
    rcases List.mem_append.mp hm with hm | hm
    · exact (mem_run.mp hm).2
    · have := h.ge hm; omega
  · intro hm
    exact ⟨j, le_refl _, List.mem_append_left _ (mem_run.mpr ⟨rfl, hm⟩)⟩

theorem heldUpTo_tail {a : ACh} {i j : Nat} {rest : List (Option (Nat × Option Val))} (hi : j ≤ i) (env : Env) :
    numericTexts env (heldUpTo (inRun a.cls j a.cells ++ rest) i) =
      (numericTexts env a.cells && numericTexts env (heldUpTo rest i)) := by
  rw [← numericTexts_append]
  refine numericTexts_congr env fun v => ?_
  rw [List.mem_append, heldUpTo_mem, heldUpTo_mem]
  constructor
  · rintro ⟨k, hk, hm⟩
    rcases List.mem_append.mp hm with hm | hm
    · exact .inl (mem_run.mp hm).2
    · exact .inr ⟨k, hk, hm⟩
  · rintro (hm | ⟨k, hk, hm⟩)
    · exact ⟨j, hi, List.mem_append_left _ (mem_run.mpr ⟨rfl, hm⟩)⟩
    · exact ⟨k, hk, List.mem_append_right _ hm⟩

theorem numLoop_runs (env : Env) {b : Nat} {as rows} (h : ATag b as rows)
    (hne : ∀ a ∈ as, a.cells ≠ []) : NumLoop env as rows := by
  induction h with
  | nil => exact ⟨rfl, rfl, rfl, by simp, by simp [aNumLoop]⟩
  | @cons b a as j rest hb hr ih =>
    have ih := ih (fun a ha => hne a (by simp [ha]))
    -- a run that is numeric, or no text, is passed over
    have pass : ∀ a' : ACh, aNumLoop env (a :: as) = (a' :: (aNumLoop env as).1, (aNumLoop env as).2) →
        numericTexts env a.cells = true → a'.held = a.held.map (Option.map fun v => some (heldNumber env v)) →
        a' = aToNum env a → NumLoop env (a :: as) (inRun a.cls j a.cells ++ rest) := by
      intro a' e hn hc ha'
      have hcl : ((aToNum env a).cls == .utf8) = false := by cases a <;> rfl
      have htp : ((aToNum env a).cls == .temp) = (a.cls == .temp) := by cases a <;> rfl
      have hnm : (a.cls == .nums) = true → ((aToNum env a).cls == .nums) = true := by cases a <;> simp [aToNum, ACh.cls]
      have hlen : (aToNum env a).cells ≠ [] := by
        have := hne a (by simp)
        cases a <;> simp_all [aToNum, ACh.cells]
      subst ha'
      refine ⟨?_, ?_, ?_, ?_, ?_⟩
      · rw [e]
        simp only
        rw [List.flatMap_cons, List.map_append, ih.cells, hc, run_map]
        congr 1
        · simp only [heldUpTo_head hr env, hn, if_true]
        · apply List.map_congr_left
          intro x hx
          cases x with
          | none => rfl
          | some x =>
            obtain ⟨i, w⟩ := x
            have hi := hr.ge hx
            simp only [Option.map_some, heldUpTo_tail (a := a) (rest := rest) (show j ≤ i by omega) env, hn, Bool.true_and]
      · rw [e]; simp only [List.any_cons, hcl, Bool.false_or]; exact ih.flag
      · rw [e]; simp only [List.any_cons, htp, ih.temp]
      · rw [e]
        simp only [List.any_cons, Bool.or_eq_true]
        rintro (h | h)
        · exact .inl (hnm h)
        · exact .inr (ih.nums h)
      · rw [e]
        intro x hx
        rcases List.mem_cons.mp hx with rfl | hx
        · exact hlen
        · exact ih.some x hx
    cases a with
    | str l raw =>
      rcases aNumeric_texts env l with ⟨xs, h1, h2, h3⟩ | ⟨e, h1, h2⟩
      · have ha : ACh.num xs = aToNum env (.str l raw) := by rw [h3]; rfl
        exact pass (.num xs) (by rw [aNumLoop, h1]) h2 (by rw [ha, aToNum_held]) ha
      · have he : aNumLoop env (.str l raw :: as) = (.str l raw :: as, true) := by rw [aNumLoop, h1]
        refine ⟨?_, ?_, ?_, ?_, ?_⟩
        · rw [he]
          simp only
          rw [← (ATag.cons hb hr).held]
          apply List.map_congr_left
          intro x hx
          cases x with
          | none => rfl
          | some x =>
            obtain ⟨i, w⟩ := x
            have hi : j ≤ i := by
              rcases List.mem_append.mp hx with hx | hx
              · rw [(mem_inRun.mp hx).2.1]
              · have := hr.ge hx; omega
            have h2' : numericTexts env (ACh.str l raw).cells = false := h2
            simp only [Option.map_some, heldUpTo_tail (a := .str l raw) (rest := rest) hi env, h2', Bool.false_and,
              Bool.false_eq_true, if_false]
        · rw [he]; simp [ACh.cls]
        · rw [he]
        · rw [he]; exact id
        · rw [he]; exact hne
    | nul n =>
      exact pass (.nul n) (by rw [aNumLoop]; simp) (by simp [numericTexts, ACh.cells]) (aToNum_held env (.nul n)) rfl
    | num l =>
      exact pass (.num l) (by rw [aNumLoop]; simp) (by simp [numericTexts, ACh.cells]) (aToNum_held env (.num l)) rfl
    | tmp l =>
      exact pass (.tmp l) (by rw [aNumLoop]; simp) (by simp [numericTexts, ACh.cells]) (aToNum_held env (.tmp l)) rfl

theorem aNumLoop_none (env : Env) : ∀ as : List ACh, (as.any fun a => a.cls == .utf8) = false →
    aNumLoop env as = (as, false)
  | [], _ => rfl
  | a :: as, h => by
    rw [List.any_cons, Bool.or_eq_false_iff] at h
    have ih := aNumLoop_none env as h.2
    cases a with
    | str l r => exact absurd h.1 (by simp [ACh.cls])
    | _ => rw [aNumLoop, ih] <;> simp

theorem heldMoment_congr (env : Env) (o : ConcatOpts) {l r : List (Option Val)} (h : ∀ v, v ∈ l ↔ v ∈ r) :
    heldMoment env o l = heldMoment env o r := by
  have h1 := momentTexts_congr env o (l := l) (r := r) fun v => h _
  have h2 := numericTexts_congr env (l := l) (r := r) fun v => h _
  have h3 : l.all Option.isSome = r.all Option.isSome := by
    rw [Bool.eq_iff_iff, List.all_eq_true, List.all_eq_true]
    exact ⟨fun g x hx => g x ((h x).mpr hx), fun g x hx => g x ((h x).mp hx)⟩
  funext v
  unfold heldMoment heldMoments
  rw [h1, h2, h3]

/-- Materialising runs, with any conflict resolution. -/
theorem aConcat_runs (env : Env) (o : ConcatOpts) {b : Nat} {as rows} (h : ATag b as rows) (hne : as ≠ [])
    (hcells : ∀ a ∈ as, a.cells ≠ [])
    (hraw : o.confDt = true → (heldCells rows).any isTs = true → ∀ a ∈ as, ∀ l, a ≠ .str l true) :
    aConcat env o as = .ok (fetchedHeld env o rows) := by
  have hpl := h.plain
  have hhe := h.held
  have eT := any_flat as isTs .temp fun a ha => any_ts a (hcells a ha)
  have eN := any_flat as isNum .nums fun a ha => any_num a (hcells a ha)
  rw [← hpl] at eT eN
  have same : ∀ f, aConvert env o as = .ok (as, f) → aConvert env o.off as = .ok (as, f) →
      resolvedHeld env o rows = rows.map (Option.map (·.2)) → aConcat env o as = .ok (fetchedHeld env o rows) := by
    intro f h1 h2 h3
    rw [aConcat_step env o as as f h1 h2 (aType_off _ _ _ _ _), aConcat_default_held env o.off rfl rfl as hne hcells,
      fetchedHeld, h3, hhe]
    rfl
  cases hT : (as.any fun a => a.cls == .temp) with
  | true =>
    cases hd : o.confDt with
    | false =>
      refine same ((as.any fun a => a.cls == .nums) || as.any fun a => a.cls == .utf8) ?_ ?_ ?_
      · simp [aConvert, hT, hd]
      · simp [aConvert, hT, ConcatOpts.off]
      · simp [resolvedHeld, eT, hT, hd]
    | true =>
      have hstep : ∀ a ∈ as, aStrTmp env o (aNumTmp a) =
          .ok (aToTmpH env o a.cells a, (a.cls == .utf8) && !tmpOkH env o a.cells) := fun a ha =>
        aStrTmp_run env o a (hraw hd (by rw [eT, hT]) a ha)
      set g : ACh → ACh := fun a => aToTmpH env o a.cells a with hg
      have hcl : ∀ a ∈ as, (g a).cls = .temp ∨ (g a).cls = .null ∨ (g a).cls = .utf8 := by
        intro a ha
        cases a with
        | str l r =>
          simp only [hg, aToTmpH]
          split_ifs
          · exact .inl rfl
          · exact .inl rfl
          · exact .inr (.inr rfl)
        | nul n => exact .inr (.inl rfl)
        | num l => exact .inl rfl
        | tmp l => exact .inl rfl
      have hnull : ∀ a, (g a).cls = .null ↔ a.cls = .null := by
        intro a
        cases a with
        | str l r =>
          simp only [hg, aToTmpH]
          split_ifs <;> simp [ACh.cls]
        | _ => simp [hg, aToTmpH, ACh.cls]
      have bT : ((as.map g).any fun a => a.cls == .temp) = true := by
        rw [List.any_eq_true] at hT ⊢
        obtain ⟨a, ha, hc⟩ := hT
        refine ⟨g a, List.mem_map_of_mem ha, ?_⟩
        cases a <;> simp_all [ACh.cls, aToTmpH]
      have bN : ((as.map g).any fun a => a.cls == .nums) = false := by
        rw [List.any_eq_false]
        intro c hc
        obtain ⟨a, ha, rfl⟩ := List.mem_map.mp hc
        rcases hcl a ha with h | h | h <;> simp [h]
      have bS : ((as.map g).any fun a => a.cls == .utf8) =
          as.any fun a => (a.cls == .utf8) && !tmpOkH env o a.cells := by
        rw [List.any_map]
        congr 1
        funext a
        cases a with
        | str l r =>
          simp only [hg, Function.comp, aToTmpH, tmpOkH]
          split_ifs with h1 h2
          · simp [ACh.cls, h1]
          · simp only [ACh.cls, h2, Bool.or_true]; rfl
          · have h3 : (o.confNum && numericTexts env (ACh.str l r).cells) = false := by simpa using h2
            have h4 : heldMoments env o (ACh.str l r).cells = false := by simpa using h1
            rw [h3, h4]; rfl
        | _ => rfl
      have h1 : aConvert env o as = .ok (as.map g, as.any fun a => (a.cls == .utf8) && !tmpOkH env o a.cells) := by
        unfold aConvert
        simp only [hT, hd, if_true]
        rw [strTmp_runs env o as hstep]
        simp [Function.comp_def, hg]
      have h2 : aConvert env o.off (as.map g) =
          .ok (as.map g, as.any fun a => (a.cls == .utf8) && !tmpOkH env o a.cells) := by
        unfold aConvert
        simp only [bT, bN, bS, ConcatOpts.off, if_true, Bool.false_eq_true, if_false, Bool.false_or]
      have hlen : ∀ a, (g a).cells.length = a.cells.length := by
        intro a
        cases a with
        | nul n => rfl
        | _ => rw [hg, aToTmpH_cells env o _ _ (by simp [ACh.cls]), List.length_map]
      have hc := h.map g (fun r => heldMoment env o (runHeld rows r.1) r.2) (by
        intro a ha j _ hiff
        by_cases hk : a.cls = .null
        · cases a with
          | nul n => simp [hg, aToTmpH, ACh.held, ACh.cls]
          | _ => simp [ACh.cls] at hk
        · have e1 := aToTmpH_cells env o a.cells a hk
          rw [← heldMoment_congr env o (l := runHeld rows j) (r := a.cells) (by
            intro v
            rw [runHeld_mem, hiff]
            exact and_iff_right hk)] at e1
          unfold ACh.held
          rw [List.map_map]
          simp only [hnull]
          rw [show (g a).cells = _ from e1, List.map_map]
          apply List.map_congr_left
          intro x _
          simp only [Function.comp]
          rw [if_neg hk, if_neg hk]
          rfl)
      rw [aConcat_step env o as _ _ h1 h2 (by rw [hT, bT]; rfl), aConcat_default_held env o.off rfl rfl _ (by simpa using hne)
        (by
          intro c hc
          obtain ⟨a, ha, rfl⟩ := List.mem_map.mp hc
          rw [← List.length_pos_iff, hlen, List.length_pos_iff]
          exact hcells a ha), hc]
      simp only [fetchedHeld, resolvedHeld, eT, hT, hd, if_true]
      rfl
  | false =>
    cases hN : (as.any fun a => a.cls == .nums) with
    | false =>
      exact same false (by simp [aConvert, hT, hN]) (by simp [aConvert, hT, hN]) (by simp [resolvedHeld, eT, eN, hT, hN])
    | true =>
      have L := numLoop_runs env h hcells
      cases hn : o.confNum with
      | false =>
        refine same (as.any fun a => a.cls == .utf8) ?_ ?_ (by simp [resolvedHeld, eT, hT, hn])
        · simp only [aConvert, hT, hN, hn]
          cases (as.any fun a => a.cls == .utf8) <;> simp
        · simp only [aConvert, hT, hN, ConcatOpts.off]
          cases (as.any fun a => a.cls == .utf8) <;> simp
      | true =>
        have h1 : aConvert env o as = .ok (aNumLoop env as) := by
          unfold aConvert
          simp only [hT, hN, hn, Bool.false_eq_true, if_false, Bool.true_and, if_true]
          cases hS : (as.any fun a => a.cls == .utf8) with
          | true => simp
          | false => rw [aNumLoop_none env as hS]; simp
        have h2 : aConvert env o.off (aNumLoop env as).1 = .ok (aNumLoop env as) := by
          unfold aConvert
          have hfl := L.flag
          simp only [L.temp, hT, L.nums hN, ConcatOpts.off, Bool.false_eq_true, if_false, Bool.true_and]
          rw [← hfl]
          cases hb : (aNumLoop env as).2 <;> (simp [← hb])
        have hb : (aNumLoop env as).1 ≠ [] := by
          intro h0
          have := L.nums hN
          rw [h0] at this
          simp at this
        rw [aConcat_step env o as (aNumLoop env as).1 (aNumLoop env as).2 h1 h2
            (by rw [L.temp, hN, L.nums hN]; rfl),
          aConcat_default_held env o.off rfl rfl _ hb L.some, L.cells]
        simp only [fetchedHeld, resolvedHeld, eT, hT, eN, hN, hn, Bool.and_self, if_true, Bool.false_eq_true, if_false]
        rfl

/-! ## Columns without missing texts -/

/-- The rows of a column whose texts are all there. -/
def fullRows (rows : List (Option (Nat × Val))) : List (Option (Nat × Option Val)) :=
  rows.map (Option.map fun r => (r.1, some r.2))

theorem heldCells_full (rows : List (Option (Nat × Val))) : heldCells (fullRows rows) = plainCells rows := by
  unfold heldCells fullRows plainCells
  rw [List.map_map]
  apply List.map_congr_left
  intro x _
  cases x <;> rfl

theorem mem_full {rows : List (Option (Nat × Val))} {j : Nat} {v : Val} :
    some (j, some v) ∈ fullRows rows ↔ some (j, v) ∈ rows := by
  unfold fullRows
  rw [List.mem_map]
  constructor
  · rintro ⟨x, hx, e⟩
    cases x with
    | none => simp at e
    | some x =>
      simp only [Option.map_some, Option.some.injEq, Prod.mk.injEq] at e
      rw [← e.1, ← e.2]; exact hx
  · intro h
    exact ⟨_, h, rfl⟩

theorem full_missing {rows : List (Option (Nat × Val))} {j : Nat} : some (j, none) ∉ fullRows rows := by
  unfold fullRows
  rw [List.mem_map]
  rintro ⟨x, hx, e⟩
  cases x <;> simp at e

theorem plain_mem {rows : List (Option (Nat × Val))} {j : Nat} {v : Val} (h : some (j, v) ∈ rows) :
    some v ∈ plainCells rows := List.mem_map.mpr ⟨_, h, rfl⟩

theorem mem_plain {rows : List (Option (Nat × Val))} {v : Val} (h : some v ∈ plainCells rows) :
    ∃ j, some (j, v) ∈ rows := by
  obtain ⟨x, hx, e⟩ := List.mem_map.mp h
  cases x with
  | none => simp at e
  | some x =>
    obtain ⟨j, w⟩ := x
    simp only [Option.map_some, Option.some.injEq] at e
    subst e
    exact ⟨j, hx⟩

/-- Where resolution is a matter of values, the runs do not matter. -/
theorem fetchedRuns_resolvable {env : Env} {o : ConcatOpts} {inl : Bool} {rows : List (Option (Nat × Val))}
    (hr : Resolvable env o inl (plainCells rows)) : fetchedRuns env o rows = fetched env o (plainCells rows) := by
  have each : ∀ (f : Nat × Val → Val) (g : Val → Val), (∀ j v, some (j, v) ∈ rows → f (j, v) = g v) →
      rows.map (Option.map f) = (plainCells rows).map (Option.map g) := by
    intro f g h
    rw [plainCells, List.map_map]
    apply List.map_congr_left
    intro x hx
    cases x with
    | none => rfl
    | some x => obtain ⟨j, v⟩ := x; simp only [Option.map_some, Function.comp, h j v hx]
  have keep : ∀ g : Val → Val, (∀ v, some v ∈ plainCells rows → g v = v) →
      (plainCells rows).map (Option.map g) = plainCells rows := by
    intro g h
    refine map_id_of _ _ fun x hx => ?_
    cases x with
    | none => rfl
    | some v => rw [Option.map_some, h v hx]
  have hnum : ∀ j s (L : List (Option Val)), (plainCells rows).any isNum = true ∨ (plainCells rows).any isTs = true →
      o.confNum = true → some (j, .str s) ∈ rows → some (.str s) ∈ L →
      (∀ v, some v ∈ L → some v ∈ plainCells rows) → numericTexts env L = numericTexts env (plainCells rows) := by
    intro j s L hk hc hm hL hsub
    rcases hr.num hc hk with h | h
    · rw [numericTexts_mem.mpr h, numericTexts_mem.mpr fun t ht => h t (hsub _ ht)]
    · have h1 : numericTexts env L = false := by
        rw [Bool.eq_false_iff]
        intro h0
        have := numericTexts_mem.mp h0 s hL
        rw [h s (plain_mem hm)] at this
        simp at this
      have h2 : numericTexts env (plainCells rows) = false := by
        rw [Bool.eq_false_iff]
        intro h0
        have := numericTexts_mem.mp h0 s (plain_mem hm)
        rw [h s (plain_mem hm)] at this
        simp at this
      rw [h1, h2]
  unfold fetchedRuns fetched
  congr 1
  unfold resolvedRuns resolved
  by_cases ht : (plainCells rows).any isTs = true
  · rw [if_pos ht, if_pos ht]
    by_cases hd : o.confDt = true
    · rw [if_pos hd, if_pos hd]
      refine each _ _ fun j v hm => ?_
      cases v with
      | str s =>
        have hrun : some (.str s) ∈ runCells rows j := runCells_mem.mpr hm
        have hsub : ∀ v, some v ∈ runCells rows j → some v ∈ plainCells rows := fun v hv => plain_mem (runCells_mem.mp hv)
        rcases hr.tmp hd ht with hno | ⟨_, hmm⟩
        · rw [List.any_eq_false] at hno
          exact absurd rfl (hno _ (plain_mem hm))
        · have h1 : momentTexts env o (runCells rows j) = momentTexts env o (plainCells rows) := by
            rcases hmm with h | h
            · rw [momentTexts_mem.mpr h, momentTexts_mem.mpr fun t ht => h t (hsub _ ht)]
            · have h1 : momentTexts env o (runCells rows j) = false := by
                rw [Bool.eq_false_iff]
                intro h0
                have := momentTexts_mem.mp h0 s hrun
                rw [h s (plain_mem hm)] at this
                simp at this
              have h2 : momentTexts env o (plainCells rows) = false := by
                rw [Bool.eq_false_iff]
                intro h0
                have := momentTexts_mem.mp h0 s (plain_mem hm)
                rw [h s (plain_mem hm)] at this
                simp at this
              rw [h1, h2]
          have h2 : (o.confNum && numericTexts env (runCells rows j)) =
              (o.confNum && numericTexts env (plainCells rows)) := by
            cases hc : o.confNum with
            | false => rfl
            | true => rw [hnum j s _ (.inr ht) hc hm hrun hsub]
          simp only [asMoment, h1, h2]
      | _ => rfl
    · rw [if_neg hd, if_neg hd]
  · rw [if_neg ht, if_neg ht]
    by_cases hc : (o.confNum && (plainCells rows).any isNum) = true
    · rw [if_pos hc]
      have hcn : o.confNum = true := by
        rw [Bool.and_eq_true] at hc; exact hc.1
      rw [hc, Bool.true_and]
      have hup : ∀ j s, some (j, .str s) ∈ rows →
          numericTexts env (cellsUpTo rows j) = numericTexts env (plainCells rows) := fun j s hm =>
        hnum j s _ (.inl (Bool.and_eq_true_iff.mp hc).2) hcn hm (cellsUpTo_mem.mpr ⟨j, le_refl _, hm⟩) fun v hv => by
          obtain ⟨i, _, h⟩ := cellsUpTo_mem.mp hv
          exact plain_mem h
      by_cases hall : numericTexts env (plainCells rows) = true
      · rw [if_pos hall]
        refine each _ _ fun j v hm => ?_
        cases v with
        | str s => simp only [hup j s hm, hall, if_true]
        | _ => simp [asNumber]
      · rw [if_neg hall]
        have := each (fun r => if numericTexts env (cellsUpTo rows r.1) then asNumber env r.2 else r.2) id (by
          intro j v hm
          cases v with
          | str s => simp only [hup j s hm, hall, if_false, id, Bool.false_eq_true]
          | _ => simp [asNumber])
        rw [this]
        exact keep id fun v _ => rfl
    · rw [if_neg hc, if_neg]
      rw [Bool.and_eq_true]
      exact fun h => hc h.1

theorem pickRows_map {α β : Type} (f : α → β) (rows : List (Option α)) (off len : Nat) (m : Option (List Bool)) :
    pickRows (rows.map (Option.map f)) off len m = (pickRows rows off len m).map (Option.map f) := by
  have hc : ∀ i, cellAt (rows.map (Option.map f)) i = (cellAt rows i).map f := by
    intro i
    unfold cellAt
    rw [List.getElem?_map]
    cases rows[i]? with
    | none => rfl
    | some x => cases x <;> rfl
  cases m with
  | none => simp only [pickRows, window, List.map_map, hc]; rfl
  | some m => simp only [pickRows, maskedRows, List.map_map, hc]; rfl

/-! ## The numbers of the runs of a column -/

theorem runNumbers_length {α : Type} (n : Nat) (prev) (rows : List (Option (Nat × α))) :
    (runNumbers n prev rows).length = rows.length := by
  induction rows generalizing n prev with
  | nil => rfl
  | cons r rs ih => simp only [runNumbers, List.length_cons, ih]

theorem runNumbers_same (t : Option Nat) (rest : List (Option (Nat × Raw))) : ∀ (l : List (Option (Nat × Raw))) (n : Nat),
    (∀ r ∈ l, r.map (·.1) = t) →
    runNumbers n (some t) (l ++ rest) = List.replicate l.length n ++ runNumbers n (some t) rest
  | [], n, _ => rfl
  | r :: l, n, h => by
    rw [List.cons_append, runNumbers]
    simp only [h r (by simp), if_true, List.length_cons, List.replicate_succ, List.cons_append]
    rw [runNumbers_same t rest l n fun x hx => h x (by simp [hx])]

theorem runNumbers_stretch (t : Option Nat) (rest : List (Option (Nat × Raw))) (l : List (Option (Nat × Raw))) (n : Nat)
    (prev : Option (Option Nat)) (hl : l ≠ []) (hp : prev ≠ some t) (h : ∀ r ∈ l, r.map (·.1) = t) :
    runNumbers n prev (l ++ rest) = List.replicate l.length (n + 1) ++ runNumbers (n + 1) (some t) rest := by
  cases l with
  | nil => exact absurd rfl hl
  | cons r l =>
    rw [List.cons_append, runNumbers]
    simp only [h r (by simp), hp, if_false, List.length_cons, List.replicate_succ, List.cons_append]
    rw [runNumbers_same t rest l (n + 1) fun x hx => h x (by simp [hx])]

theorem zip_replicate {β : Type} (f : Nat → Option (Nat × Raw) → β) (n : Nat) (l : List (Option (Nat × Raw))) :
    List.zipWith f (List.replicate l.length n) l = l.map (f n) := by
  induction l with
  | nil => rfl
  | cons r l ih => rw [List.length_cons, List.replicate_succ, List.zipWith_cons_cons, ih]; rfl

/-- Without missing texts. -/
theorem heldMoment_full (env : Env) (o : ConcatOpts) {l : List (Option Val)} (h : none ∉ l) (v : Val) :
    heldMoment env o l (some v) = some (asMoment env o l v) := by
  have h3 : l.all Option.isSome = true := by
    rw [List.all_eq_true]
    intro x hx
    cases x with
    | none => exact absurd hx h
    | some x => rfl
  cases v with
  | str s =>
    simp only [heldMoment, heldMoments, h3, Bool.true_or, Bool.and_true, asMoment]
    split_ifs <;> rfl
  | _ => rfl

theorem fetchedHeld_full (env : Env) (o : ConcatOpts) (rows : List (Option (Nat × Val))) :
    fetchedHeld env o (fullRows rows) = fetchedRuns env o rows := by
  have hr : resolvedHeld env o (fullRows rows) = (resolvedRuns env o rows).map (Option.map some) := by
    unfold resolvedHeld resolvedRuns
    rw [heldCells_full]
    have p : (fullRows rows).map (Option.map (·.2)) = (plainCells rows).map (Option.map some) := by
      unfold fullRows plainCells
      rw [List.map_map, List.map_map]
      apply List.map_congr_left
      intro x _
      cases x <;> rfl
    split
    · split
      · unfold fullRows
        rw [List.map_map, List.map_map]
        apply List.map_congr_left
        intro x _
        cases x with
        | none => rfl
        | some x =>
          simp only [Function.comp, Option.map_some]
          rw [heldMoment_full env o (l := runHeld _ x.1)]
          · rw [asMoment_congr env o (l := runHeld _ x.1) (r := runCells rows x.1)]
            intro v
            rw [runHeld_mem, runCells_mem]
            exact mem_full
          · rw [runHeld_mem]
            exact full_missing
      · exact p
    · split
      · unfold fullRows
        rw [List.map_map, List.map_map]
        apply List.map_congr_left
        intro x _
        cases x with
        | none => rfl
        | some x =>
          simp only [Function.comp, Option.map_some]
          rw [numericTexts_congr env (l := heldUpTo _ x.1) (r := cellsUpTo rows x.1)]
          · split <;> rfl
          · intro v
            rw [heldUpTo_mem, cellsUpTo_mem]
            simp only [← mem_full, fullRows]
      · exact p
  have hm : ((resolvedRuns env o rows).map (Option.map some)).any isMissing = false := by
    rw [List.any_eq_false]
    intro x hx
    obtain ⟨y, _, rfl⟩ := List.mem_map.mp hx
    cases y <;> simp [isMissing]
  have hj : ((resolvedRuns env o rows).map (Option.map some)).map Option.join = resolvedRuns env o rows := by
    rw [List.map_map]
    conv_rhs => rw [← List.map_id (resolvedRuns env o rows)]
    apply List.map_congr_left
    intro x _
    cases x <;> rfl
  unfold fetchedHeld fetchedRuns materialise
  simp only [hr]
  have hty : heldType o.prec ((resolvedRuns env o rows).map (Option.map some)) =
      columnType o.prec (resolvedRuns env o rows) := by
    rw [heldType, hm, hj]; rfl
  rw [hty]
  congr 1
  rw [List.map_map]
  apply List.map_congr_left
  intro x _
  cases x <;> rfl

theorem pickRows_full (rows : List (Option (Nat × Val))) (off len : Nat) (m : Option (List Bool)) :
    pickRows (fullRows rows) off len m = fullRows (pickRows rows off len m) := pickRows_map _ rows off len m

end Rxls
