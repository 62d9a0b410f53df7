import Verif.Spec.Read
import Verif.Lemmas.ConcatTop
import Verif.Lemmas.ConcatType
import Verif.Lemmas.Strptime

/-! # Materialising a column -/

namespace Rxls

theorem castVals_rendered (env : Env) (dt : DType) (l : List (Option Val))
    (h : ∀ v, some v ∈ l → castVal env dt v = .ok (rendered env dt v)) :
    castVals env dt l = .ok (l.map (Option.map (rendered env dt))) := by
  induction l with
  | nil => rfl
  | cons v l ih =>
    rw [castVals_cons, ih fun w hw => h w (by simp [hw])]
    cases v with
    | none => rfl
    | some w => simp only [h w (by simp), Except.map]; rfl

theorem mapPy_rendered (env : Env) (dt : DType) (as : List ACh)
    (h : ∀ v, some v ∈ as.flatMap ACh.cells → castVal env dt v = .ok (rendered env dt v)) :
    mapPy (fun a => castVals env dt a.cells) as =
      .ok (as.map fun a => a.cells.map (Option.map (rendered env dt))) := by
  induction as with
  | nil => rfl
  | cons a as ih =>
    rw [mapPy, castVals_rendered env dt a.cells fun v hv => h v (by simp [hv]), ih fun v hv => h v (by
      rw [List.flatMap_cons]; exact List.mem_append_right _ hv)]
    rfl

theorem any_ts (a : ACh) (hne : a.cells ≠ []) : a.cells.any isTs = (a.cls == .temp) := by
  cases a with
  | nul n => simp [ACh.cells, isTs, ACh.cls, Function.comp_def]
  | str l r =>
    have : (ACh.str l r).cells.any isTs = false := by
      simp only [ACh.cells, List.any_map, List.any_eq_false]
      intro x _
      cases x <;> simp [isTs]
    rw [this]; rfl
  | num l => simp only [ACh.cells, isTs, ACh.cls, List.any_map, Function.comp_def]; exact List.any_eq_false.mpr (by simp)
  | tmp l =>
    cases l with
    | nil => exact absurd rfl hne
    | cons x l => simp [ACh.cells, isTs, ACh.cls]

theorem any_num (a : ACh) (hne : a.cells ≠ []) : a.cells.any isNum = (a.cls == .nums) := by
  cases a with
  | nul n => simp [ACh.cells, isNum, ACh.cls, Function.comp_def]
  | str l r =>
    have : (ACh.str l r).cells.any isNum = false := by
      simp only [ACh.cells, List.any_map, List.any_eq_false]
      intro x _
      cases x <;> simp [isNum]
    rw [this]; rfl
  | tmp l => simp only [ACh.cells, isNum, ACh.cls, List.any_map, Function.comp_def]; exact List.any_eq_false.mpr (by simp)
  | num l =>
    cases l with
    | nil => exact absurd rfl hne
    | cons x l => simp [ACh.cells, isNum, ACh.cls]

theorem any_text (a : ACh) (hne : a.cells ≠ []) (hf : a.full) : a.cells.any isText = (a.cls == .utf8) := by
  cases a with
  | nul n => simp [ACh.cells, isText, ACh.cls, Function.comp_def]
  | tmp l => simp only [ACh.cells, isText, ACh.cls, List.any_map, Function.comp_def]; exact List.any_eq_false.mpr (by simp)
  | num l => simp only [ACh.cells, isText, ACh.cls, List.any_map, Function.comp_def]; exact List.any_eq_false.mpr (by simp)
  | str l r =>
    cases l with
    | nil => exact absurd rfl hne
    | cons x l =>
      cases x with
      | none => simp [ACh.full] at hf
      | some s => simp [ACh.cells, isText, ACh.cls]

theorem any_flat (as : List ACh) (p : Option Val → Bool) (k : Cls) (h : ∀ a ∈ as, a.cells.any p = (a.cls == k)) :
    (as.flatMap ACh.cells).any p = as.any fun a => a.cls == k := by
  induction as with
  | nil => rfl
  | cons a as ih =>
    rw [List.flatMap_cons, List.any_append, List.any_cons, ih fun a ha => h a (by simp [ha]), h a (by simp)]

theorem whole_flat (env : Env) (p : Nat) (as : List ACh) (h : ∀ a ∈ as, a.cls = .nums ∨ a.cls = .null) :
    as.all (ACh.whole env p) = (as.flatMap ACh.cells).all (wholeNum p) := by
  induction as with
  | nil => rfl
  | cons a as ih =>
    rw [List.flatMap_cons, List.all_append, List.all_cons, ih fun a ha => h a (by simp [ha])]
    congr 1
    rcases h a (by simp) with hc | hc
    · cases a <;> simp [ACh.cls] at hc
      rename_i l
      rw [num_whole, f8IsI8_all]
      simp [ACh.cells, List.all_map, wholeNum, Function.comp_def]
    · cases a <;> simp [ACh.cls] at hc
      rename_i n
      simp [ACh.whole, ACh.cls, ACh.cells, wholeNum]

theorem aConcat_default (env : Env) (o : ConcatOpts) (hd : o.confDt = false) (hc : o.confNum = false) (as : List ACh)
    (hne : as ≠ []) (hcells : ∀ a ∈ as, a.cells ≠ []) (hf : ∀ a ∈ as, a.full) :
    aConcat env o as = .ok (materialise env o.prec (as.flatMap ACh.cells)) := by
  have eT := any_flat as isTs .temp fun a ha => any_ts a (hcells a ha)
  have eN := any_flat as isNum .nums fun a ha => any_num a (hcells a ha)
  have eS := any_flat as isText .utf8 fun a ha => any_text a (hcells a ha) (hf a ha)
  have hemp : ∀ dt, (as.map fun a => a.cells.map (Option.map (rendered env dt))).isEmpty = false := by
    intro dt
    cases as with
    | nil => exact absurd rfl hne
    | cons => rfl
  have hflat : ∀ dt, (as.map fun a => a.cells.map (Option.map (rendered env dt))).flatten =
      (as.flatMap ACh.cells).map (Option.map (rendered env dt)) := by
    intro dt
    rw [List.map_flatMap]
    rfl
  have hu : ∀ v : Val, castVal env .utf8 v = .ok (rendered env .utf8 v) := by intro v; cases v <;> rfl
  -- values by kind
  have hval : ∀ v, some v ∈ as.flatMap ACh.cells →
      (isTs (some v) = true ∧ (as.any fun a => a.cls == .temp) = true) ∨
      (isNum (some v) = true ∧ (as.any fun a => a.cls == .nums) = true) ∨
      (isText (some v) = true ∧ (as.any fun a => a.cls == .utf8) = true) := by
    intro v hv
    cases v with
    | ts n => exact .inl ⟨rfl, by rw [← eT, List.any_eq_true]; exact ⟨_, hv, rfl⟩⟩
    | f8 x => exact .inr (.inl ⟨rfl, by rw [← eN, List.any_eq_true]; exact ⟨_, hv, rfl⟩⟩)
    | str s => exact .inr (.inr ⟨rfl, by rw [← eS, List.any_eq_true]; exact ⟨_, hv, rfl⟩⟩)
    | i8 n =>
      exfalso
      rw [List.mem_flatMap] at hv
      obtain ⟨a, _, ha⟩ := hv
      cases a <;> simp [ACh.cells] at ha
  unfold aConcat aConvert materialise columnType
  simp only [hd, hc, eT, eN, eS]
  cases hT : (as.any fun a => a.cls == .temp) <;> cases hN : (as.any fun a => a.cls == .nums) <;>
    cases hS : (as.any fun a => a.cls == .utf8) <;>
    simp only [Bool.false_eq_true, if_false, if_true, Bool.toNat_true, Bool.toNat_false, Bool.and_true, Bool.and_false,
      Bool.and_self, Bool.or_self, Bool.or_true, Bool.or_false, aType, Nat.reduceAdd, Nat.reduceLT, Nat.add_zero, Nat.zero_add]
  all_goals try (rw [mapPy_rendered env .utf8 as fun v _ => hu v]; simp only [hemp, hflat]; rfl)
  · -- numbers only
    have hk : ∀ a ∈ as, a.cls = .nums ∨ a.cls = .null := by
      intro a ha
      rw [List.any_eq_false] at hT hS
      have h1 := hT a ha
      have h2 := hS a ha
      cases h : a.cls <;> simp_all
    rw [aInt_plain env o.prec as hk, whole_flat env o.prec as hk]
    simp only
    have hcast : ∀ dt, dt = .i8 ∨ dt = .f8 → ∀ v, some v ∈ as.flatMap ACh.cells →
        castVal env dt v = .ok (rendered env dt v) := by
      intro dt hdt v hv
      rcases hval v hv with ⟨_, h⟩ | ⟨h, _⟩ | ⟨_, h⟩
      · rw [hT] at h; cases h
      · cases v <;> simp [isNum] at h
        rcases hdt with rfl | rfl <;> rfl
      · rw [hS] at h; cases h
    cases hw : (as.flatMap ACh.cells).all (wholeNum o.prec) <;> simp only [if_true, Bool.false_eq_true, if_false]
    · rw [mapPy_rendered env .f8 as (hcast .f8 (.inr rfl))]; simp only [hemp, hflat]; rfl
    · rw [mapPy_rendered env .i8 as (hcast .i8 (.inl rfl))]; simp only [hemp, hflat]; rfl
  · -- moments only
    have hcast : ∀ v, some v ∈ as.flatMap ACh.cells → castVal env .ts v = .ok (rendered env .ts v) := by
      intro v hv
      rcases hval v hv with ⟨h, _⟩ | ⟨_, h⟩ | ⟨_, h⟩
      · cases v <;> simp [isTs] at h
        rfl
      · rw [hN] at h; cases h
      · rw [hS] at h; cases h
    rw [mapPy_rendered env .ts as hcast]; simp only [hemp, hflat]; rfl

/-! ## Conflict resolution -/

/-- The same options with conflict resolution off. -/
def ConcatOpts.off (o : ConcatOpts) : ConcatOpts := { o with confDt := false, confNum := false }

theorem aConcat_step (env : Env) (o : ConcatOpts) (as bs : List ACh) (f : Bool) (h : aConvert env o as = .ok (bs, f))
    (h' : aConvert env o.off bs = .ok (bs, f))
    (hty : aType o (as.any fun a => a.cls == .temp) (as.any fun a => a.cls == .nums) f bs =
      aType o.off (bs.any fun a => a.cls == .temp) (bs.any fun a => a.cls == .nums) f bs) :
    aConcat env o as = aConcat env o.off bs := by
  unfold aConcat
  simp only [h, h', hty]

theorem aType_off (o : ConcatOpts) (t n f : Bool) (bs : List ACh) : aType o t n f bs = aType o.off t n f bs := rfl

/-- Texts become numbers. -/
def aToNum (env : Env) : ACh → ACh
  | .str l _ => .num ((l.map (Option.map Val.str)).map (cellNumber env))
  | a => a

theorem aNumLoop_all (env : Env) : ∀ as : List ACh, (∀ a ∈ as, numericTexts env a.cells = true) →
    aNumLoop env as = (as.map (aToNum env), false)
  | [], _ => rfl
  | a :: as, h => by
    have ih := aNumLoop_all env as fun a ha => h a (by simp [ha])
    cases a with
    | str l raw =>
      rcases aNumeric_texts env l with ⟨xs, h1, _, h3⟩ | ⟨e, _, h2⟩
      · rw [aNumLoop, h1, ih, h3]; rfl
      · have := h (.str l raw) (by simp)
        simp only [ACh.cells] at this
        rw [this] at h2; simp at h2
    | _ => rw [aNumLoop, ih] <;> simp [aToNum]

theorem aToNum_cells (env : Env) (a : ACh) (hf : a.full) :
    (aToNum env a).cells = a.cells.map (Option.map (asNumber env)) := by
  cases a with
  | str l r =>
    simp only [ACh.full, List.all_eq_true] at hf
    simp only [aToNum, ACh.cells, List.map_map]
    apply List.map_congr_left
    intro x hx
    cases x with
    | none => exact absurd (hf _ hx) (by simp)
    | some x => rfl
  | _ => simp [aToNum, ACh.cells, asNumber, Function.comp_def]

theorem mfStrptime_any (env : Env) (o : ConcatOpts) (l : List (Option Str)) :
    let F := if o.formats = [] then env.formats else o.formats
    mfStrptime env.strptime env.formats l o.formats true =
      if (l.map (mfElem env.strptime F)).any (fun r => decide (r = 0)) then .error .arrowInvalid
      else .ok (l.map (mfElem env.strptime F)) := by
  intro F
  by_cases h : o.formats = []
  · have e : mfStrptime env.strptime env.formats l o.formats true = mfStrptime env.strptime [] l env.formats true := by
      rw [h]
      unfold mfStrptime
      cases env.formats <;> simp
    have hF : F = env.formats := if_pos h
    rw [e, hF]
    by_cases h0 : env.formats = []
    · rw [h0]
      have hm : l.map (mfElem env.strptime []) = List.replicate l.length 0 := by
        rw [← List.map_const']; rfl
      rw [hm]
      simp [mfStrptime, mfLoop]
    · rw [mfStrptime_eq _ _ _ _ _ h0]; simp
  · have hF : F = o.formats := if_neg h
    rw [mfStrptime_eq _ _ _ _ _ h, hF]; simp

theorem mfElem_text (env : Env) (o : ConcatOpts) (s : Str) :
    mfElem env.strptime (if o.formats = [] then env.formats else o.formats) (some s) = (textMoment env o s).getD 0 := by
  rw [mfElem_usable]; rfl

theorem textMoment_ne {env : Env} {o : ConcatOpts} {s : Str} {v : Int} (h : textMoment env o s = some v) : v ≠ 0 := by
  unfold textMoment at h
  obtain ⟨f, _, hf⟩ := List.exists_of_findSome?_eq_some h
  cases hs : env.strptime f (some s) with
  | none => rw [hs] at hf; simp at hf
  | some w =>
    rw [hs] at hf
    simp only [Option.bind_some] at hf
    split at hf
    · simp at hf
    · injection hf with hf; subst hf; assumption

theorem momentTexts_mem {env : Env} {o : ConcatOpts} {l : List (Option Val)} :
    momentTexts env o l = true ↔ ∀ s, some (.str s) ∈ l → (textMoment env o s).isSome = true := by
  unfold momentTexts
  rw [List.all_eq_true]
  constructor
  · intro h s hs; exact h _ hs
  · intro h v hv
    cases v with
    | none => rfl
    | some v => cases v with
      | str s => exact h s hv
      | _ => rfl

theorem numericTexts_mem {env : Env} {l : List (Option Val)} :
    numericTexts env l = true ↔ ∀ s, some (.str s) ∈ l → (env.parseF8 s).isSome = true := by
  unfold numericTexts
  rw [List.all_eq_true]
  constructor
  · intro h s hs; exact h _ hs
  · intro h v hv
    cases v with
    | none => rfl
    | some v => cases v with
      | str s => exact h s hv
      | _ => rfl

/-- A run with its values turned into moments, given the cells of the column. -/
def aToTmp (env : Env) (o : ConcatOpts) (cells : List (Option Val)) : ACh → ACh
  | .num l => .tmp (l.map f8ToMsWin)
  | .str l r =>
    if momentTexts env o cells then .tmp (l.map fun s => (s.bind (textMoment env o)).getD 0)
    else if o.confNum && numericTexts env cells then
      .tmp ((l.map fun s => (s.bind env.parseF8).getD (.fin 0)).map f8ToMsWin)
    else .str l r
  | a => a

theorem aToTmp_cells (env : Env) (o : ConcatOpts) (cells : List (Option Val)) (a : ACh) (hf : a.full) :
    (aToTmp env o cells a).cells = a.cells.map (Option.map (asMoment env o cells)) := by
  cases a with
  | str l r =>
    simp only [ACh.full, List.all_eq_true] at hf
    unfold aToTmp
    split_ifs with h1 h2
    · simp only [ACh.cells, List.map_map]
      apply List.map_congr_left
      intro x hx
      cases x with
      | none => exact absurd (hf _ hx) (by simp)
      | some x => simp [asMoment, h1]
    · simp only [ACh.cells, List.map_map]
      apply List.map_congr_left
      intro x hx
      cases x with
      | none => exact absurd (hf _ hx) (by simp)
      | some x => simp [asMoment, h1, h2]
    · simp only [ACh.cells, List.map_map]
      apply List.map_congr_left
      intro x hx
      cases x with
      | none => exact absurd (hf _ hx) (by simp)
      | some x => simp [asMoment, h1, h2]
  | _ => simp [aToTmp, ACh.cells, asMoment, Function.comp_def]

/-- The texts of the column are turned into moments. -/
def tmpOk (env : Env) (o : ConcatOpts) (cells : List (Option Val)) : Bool :=
  momentTexts env o cells || (o.confNum && numericTexts env cells)

theorem aStrTmp_all (env : Env) (o : ConcatOpts) (cells : List (Option Val)) (a : ACh) (hf : a.full)
    (hne : a.cells ≠ []) (hraw : ∀ l, a ≠ .str l true)
    (hmem : ∀ v ∈ a.cells, v ∈ cells)
    (hm : (∀ s, some (.str s) ∈ cells → (textMoment env o s).isSome = true) ∨
      (∀ s, some (.str s) ∈ cells → textMoment env o s = none))
    (hn : o.confNum = true → (∀ s, some (.str s) ∈ cells → (env.parseF8 s).isSome = true) ∨
      (∀ s, some (.str s) ∈ cells → env.parseF8 s = none)) :
    aStrTmp env o (aNumTmp a) = .ok (aToTmp env o cells a, (a.cls == .utf8) && !tmpOk env o cells) := by
  cases a with
  | nul n => rfl
  | num l => rfl
  | tmp l => rfl
  | str l raw =>
    cases raw with
    | true => exact absurd rfl (hraw l)
    | false =>
      simp only [ACh.full, List.all_eq_true] at hf
      have hsome : ∀ x ∈ l, ∃ s, x = some s ∧ some (.str s) ∈ cells := by
        intro x hx
        obtain ⟨s, rfl⟩ := Option.isSome_iff_exists.mp (hf x hx)
        exact ⟨s, rfl, hmem _ (List.mem_map_of_mem (f := Option.map Val.str) hx)⟩
      have hl : l ≠ [] := by rintro rfl; exact hne rfl
      have hex : ∃ s, some s ∈ l ∧ some (.str s) ∈ cells := by
        cases l with
        | nil => exact absurd rfl hl
        | cons x l =>
          obtain ⟨s, rfl, h⟩ := hsome x (by simp)
          exact ⟨s, by simp, h⟩
      simp only [aNumTmp, aStrTmp, Bool.false_eq_true, if_false]
      rw [mfStrptime_any]
      have hcls : ((ACh.str l false).cls == .utf8) = true := rfl
      simp only [hcls, Bool.true_and]
      by_cases hM : momentTexts env o cells = true
      · have hall := momentTexts_mem.mp hM
        rw [if_neg]
        · simp only [aToTmp, hM, if_true, tmpOk, Bool.true_or, Bool.not_true]
          congr 2
          congr 1
          apply List.map_congr_left
          intro x hx
          obtain ⟨s, rfl, _⟩ := hsome x hx
          exact mfElem_text env o s
        · simp only [List.any_map, List.any_eq_true, Function.comp, decide_eq_true_eq, not_exists, not_and]
          intro x hx
          obtain ⟨s, rfl, hs⟩ := hsome x hx
          rw [mfElem_text]
          obtain ⟨v, hv⟩ := Option.isSome_iff_exists.mp (hall s hs)
          rw [hv]
          exact textMoment_ne hv
      · have hnone : ∀ s, some (.str s) ∈ cells → textMoment env o s = none := by
          rcases hm with h | h
          · exact absurd (momentTexts_mem.mpr h) hM
          · exact h
        rw [if_pos]
        · simp only [Bool.not_eq_true] at hM
          simp only [aToTmp, tmpOk, hM, Bool.false_or, Bool.false_eq_true, if_false]
          cases hc : o.confNum with
          | false => rfl
          | true =>
            simp only [if_true, Bool.true_and]
            rcases hn hc with h | h
            · have hN := numericTexts_mem.mpr h
              rcases aNumeric_texts env l with ⟨xs, h1, _, h3⟩ | ⟨e, _, h2⟩
              · rw [h1, hN, h3]
                simp only [if_true, Bool.not_true]
                congr 3
                congr 1
                rw [List.map_map]
                apply List.map_congr_left
                intro x hx
                obtain ⟨s, rfl, _⟩ := hsome x hx
                rfl
              · exfalso
                have : numericTexts env (l.map (Option.map Val.str)) = true := numericTexts_mem.mpr fun s hs => by
                  obtain ⟨x, hx, he⟩ := List.mem_map.mp hs
                  obtain ⟨t, rfl, ht⟩ := hsome x hx
                  simp only [Option.map_some, Option.some.injEq, Val.str.injEq] at he
                  subst he
                  exact h _ ht
                rw [this] at h2
                simp at h2
            · obtain ⟨s, hs, hs2⟩ := hex
              have hN : numericTexts env cells = false := by
                rw [Bool.eq_false_iff]
                intro h0
                have := numericTexts_mem.mp h0 s hs2
                rw [h s hs2] at this
                simp at this
              rcases aNumeric_texts env l with ⟨xs, _, h2, _⟩ | ⟨e, h1, _⟩
              · exfalso
                have := numericTexts_mem.mp h2 s (List.mem_map_of_mem (f := Option.map Val.str) hs)
                rw [h s hs2] at this
                simp at this
              · rw [h1, hN]; rfl
        · obtain ⟨s, hs, hs2⟩ := hex
          simp only [List.any_map, List.any_eq_true, Function.comp, decide_eq_true_eq]
          refine ⟨_, hs, ?_⟩
          rw [mfElem_text, hnone s hs2]
          rfl

theorem strTmp_all (env : Env) (o : ConcatOpts) (cells : List (Option Val)) : ∀ as : List ACh,
    (∀ a ∈ as, aStrTmp env o (aNumTmp a) = .ok (aToTmp env o cells a, (a.cls == .utf8) && !tmpOk env o cells)) →
    mapPy (aStrTmp env o) (as.map aNumTmp) =
      .ok (as.map fun a => (aToTmp env o cells a, (a.cls == .utf8) && !tmpOk env o cells))
  | [], _ => rfl
  | a :: as, h => by
    have ih := strTmp_all env o cells as fun a ha => h a (by simp [ha])
    rw [List.map_cons, mapPy, ih, h a (by simp)]
    rfl

theorem map_id_of {α : Type} (f : α → α) (l : List α) (h : ∀ x ∈ l, f x = x) : l.map f = l := by
  conv_rhs => rw [← List.map_id l]
  exact List.map_congr_left fun x hx => (h x hx).trans rfl

theorem aConcat_resolved (env : Env) (o : ConcatOpts) (as : List ACh) (hne : as ≠ [])
    (hcells : ∀ a ∈ as, a.cells ≠ []) (hf : ∀ a ∈ as, a.full) (inl : Bool)
    (hraw : inl = true → ∀ a ∈ as, ∀ l, a ≠ .str l true) (hr : Resolvable env o inl (as.flatMap ACh.cells)) :
    aConcat env o as = .ok (fetched env o (as.flatMap ACh.cells)) := by
  have eT := any_flat as isTs .temp fun a ha => any_ts a (hcells a ha)
  have eN := any_flat as isNum .nums fun a ha => any_num a (hcells a ha)
  have eS := any_flat as isText .utf8 fun a ha => any_text a (hcells a ha) (hf a ha)
  have same : ∀ f, aConvert env o as = .ok (as, f) → aConvert env o.off as = .ok (as, f) →
      resolved env o (as.flatMap ACh.cells) = as.flatMap ACh.cells →
      aConcat env o as = .ok (fetched env o (as.flatMap ACh.cells)) := by
    intro f h1 h2 h3
    rw [aConcat_step env o as as f h1 h2 (aType_off _ _ _ _ _), aConcat_default env o.off rfl rfl as hne hcells hf,
      fetched, h3]
    rfl
  have flat : ∀ (g : ACh → ACh) (h : Val → Val), (∀ a ∈ as, (g a).cells = a.cells.map (Option.map h)) →
      (as.map g).flatMap ACh.cells = (as.flatMap ACh.cells).map (Option.map h) := by
    intro g h hg
    rw [List.flatMap_map, List.map_flatMap]
    clear same eT eN eS hr hraw hne hcells hf
    induction as with
    | nil => rfl
    | cons a as ih =>
      rw [List.flatMap_cons, List.flatMap_cons, hg a (by simp), ih fun a ha => hg a (by simp [ha])]
  have clsAny : ∀ (g : ACh → ACh) (k : Cls) (p : ACh → Bool), (∀ a ∈ as, ((g a).cls == k) = p a) →
      (as.map g).any (fun a => a.cls == k) = as.any p := by
    intro g k p h
    rw [List.any_map]
    clear same eT eN eS hr hraw hne hcells hf flat
    induction as with
    | nil => rfl
    | cons a as ih =>
      rw [List.any_cons, List.any_cons, ih fun a ha => h a (by simp [ha])]
      congr 1
      exact h a (by simp)
  cases hT : (as.any fun a => a.cls == .temp) with
  | true =>
    cases hd : o.confDt with
    | false =>
      refine same ((as.any fun a => a.cls == .nums) || as.any fun a => a.cls == .utf8) ?_ ?_ ?_
      · simp [aConvert, hT, hd]
      · simp [aConvert, hT, ConcatOpts.off]
      · simp [resolved, eT, hT, hd]
    | true =>
      have hstep : ∀ a ∈ as, aStrTmp env o (aNumTmp a) =
          .ok (aToTmp env o (as.flatMap ACh.cells) a, (a.cls == .utf8) && !tmpOk env o (as.flatMap ACh.cells)) := by
        intro a ha
        rcases hr.tmp hd (by rw [eT, hT]) with hno | ⟨hi, hm⟩
        · have : a.cls ≠ .utf8 := by
            rw [eS, List.any_eq_false] at hno
            simpa using hno a ha
          cases a with
          | str l r => exact absurd rfl this
          | _ => rfl
        · exact aStrTmp_all env o _ a (hf a ha) (hcells a ha) (hraw hi a ha)
            (fun v hv => List.mem_flatMap.mpr ⟨a, ha, hv⟩) hm fun hn => hr.num hn (.inr (by rw [eT, hT]))
      generalize hC : as.flatMap ACh.cells = C at *
      have hcl : ∀ a ∈ as, (aToTmp env o C a).cls = .temp ∨ (aToTmp env o C a).cls = .null ∨
          (aToTmp env o C a).cls = .utf8 ∧ a.cls = .utf8 ∧ tmpOk env o C = false := by
        intro a ha
        cases a with
        | str l r =>
          unfold aToTmp tmpOk
          split_ifs with h1 h2
          · exact .inl rfl
          · exact .inl rfl
          · exact .inr (.inr ⟨rfl, rfl, by simp_all⟩)
        | nul n => exact .inr (.inl rfl)
        | num l => exact .inl rfl
        | tmp l => exact .inl rfl
      have bT : ((as.map (aToTmp env o C)).any fun a => a.cls == .temp) = true := by
        rw [List.any_eq_true] at hT ⊢
        obtain ⟨a, ha, hc⟩ := hT
        refine ⟨aToTmp env o C a, List.mem_map_of_mem ha, ?_⟩
        cases a <;> simp_all [ACh.cls, aToTmp]
      have bN : ((as.map (aToTmp env o C)).any fun a => a.cls == .nums) = false := by
        rw [List.any_eq_false]
        intro b hb
        obtain ⟨a, ha, rfl⟩ := List.mem_map.mp hb
        rcases hcl a ha with h | h | h <;> simp [h]
      have bS : ((as.map (aToTmp env o C)).any fun a => a.cls == .utf8) =
          as.any fun a => (a.cls == .utf8) && !tmpOk env o C := by
        refine clsAny _ _ _ fun a _ => ?_
        cases a with
        | str l r =>
          unfold aToTmp tmpOk
          split_ifs with h1 h2
          · simp [ACh.cls, h1]
          · simp [ACh.cls, h2]
          · have h3 : (o.confNum && numericTexts env C) = false := by simpa using h2
            have h4 : momentTexts env o C = false := by simpa using h1
            rw [h3, h4]; rfl
        | _ => rfl
      have h1 : aConvert env o as = .ok (as.map (aToTmp env o C), as.any fun a => (a.cls == .utf8) && !tmpOk env o C) := by
        unfold aConvert
        simp only [hT, hd, if_true]
        rw [strTmp_all env o C as hstep]
        simp [Function.comp_def]
      have h2 : aConvert env o.off (as.map (aToTmp env o C)) =
          .ok (as.map (aToTmp env o C), as.any fun a => (a.cls == .utf8) && !tmpOk env o C) := by
        unfold aConvert
        simp only [bT, bN, bS, ConcatOpts.off, if_true, Bool.false_eq_true, if_false, Bool.false_or]
      have hc := flat (aToTmp env o C) (asMoment env o C) fun a ha => aToTmp_cells env o C a (hf a ha)
      rw [aConcat_step env o as _ _ h1 h2 (by rw [hT, bT]; rfl), aConcat_default env o.off rfl rfl _ (by simpa using hne)
        (by
          intro b hb
          obtain ⟨a, ha, rfl⟩ := List.mem_map.mp hb
          rw [aToTmp_cells env o C a (hf a ha)]
          simpa using hcells a ha)
        (by
          intro b hb
          obtain ⟨a, ha, rfl⟩ := List.mem_map.mp hb
          have := hf a ha
          cases a with
          | str l r =>
            unfold aToTmp
            split_ifs
            · rfl
            · rfl
            · exact this
          | _ => rfl), hc]
      simp only [fetched, resolved, eT, hT, hd, if_true]
      rfl
  | false =>
    have hres : resolved env o (as.flatMap ACh.cells) =
        if o.confNum && (as.any fun a => a.cls == .nums) && numericTexts env (as.flatMap ACh.cells) then
          (as.flatMap ACh.cells).map (Option.map (asNumber env)) else as.flatMap ACh.cells := by
      simp [resolved, eT, eN, hT]
    have hid : (as.any fun a => a.cls == .utf8) = false →
        (as.flatMap ACh.cells).map (Option.map (asNumber env)) = as.flatMap ACh.cells := by
      intro hS
      rw [← eS, List.any_eq_false] at hS
      refine map_id_of _ _ fun v hv => ?_
      cases v with
      | none => rfl
      | some v => cases v with
        | str s => exact absurd rfl (hS _ hv)
        | _ => rfl
    cases hN : (as.any fun a => a.cls == .nums) with
    | false =>
      exact same false (by simp [aConvert, hT, hN]) (by simp [aConvert, hT, hN]) (by simp [hres, hN])
    | true =>
      cases hS : (as.any fun a => a.cls == .utf8) with
      | false =>
        refine same false (by simp [aConvert, hT, hS]) (by simp [aConvert, hT, hS]) ?_
        rw [hres, hid hS]
        simp
      | true =>
        cases hn : o.confNum with
        | false =>
          exact same true (by simp [aConvert, hT, hN, hS, hn]) (by simp [aConvert, hT, hN, hS, ConcatOpts.off])
            (by simp [hres, hn])
        | true =>
          rcases hr.num hn (.inl (by rw [eN, hN])) with hall | hnone
          · have hnum : numericTexts env (as.flatMap ACh.cells) = true := numericTexts_mem.mpr hall
            have hnum' : ∀ a ∈ as, numericTexts env a.cells = true := fun a ha => numericTexts_mem.mpr fun s hs =>
              hall s (List.mem_flatMap.mpr ⟨a, ha, hs⟩)
            have hl := aNumLoop_all env as hnum'
            have bT : ((as.map (aToNum env)).any fun a => a.cls == .temp) = false := by
              rw [clsAny (aToNum env) .temp (fun a => a.cls == .temp), hT]
              intro a _
              cases a <;> rfl
            have bN : ((as.map (aToNum env)).any fun a => a.cls == .nums) = true := by
              rw [List.any_eq_true] at hN ⊢
              obtain ⟨a, ha, hc⟩ := hN
              refine ⟨aToNum env a, List.mem_map_of_mem ha, ?_⟩
              cases a <;> simp_all [ACh.cls, aToNum]
            have bS : ((as.map (aToNum env)).any fun a => a.cls == .utf8) = false := by
              rw [clsAny (aToNum env) .utf8 (fun _ => false)]
              · simp
              · intro a _
                cases a <;> rfl
            have h1 : aConvert env o as = .ok (as.map (aToNum env), false) := by
              simp [aConvert, hT, hN, hS, hn, hl]
            have h2 : aConvert env o.off (as.map (aToNum env)) = .ok (as.map (aToNum env), false) := by
              unfold aConvert
              simp only [bT, bN, bS, Bool.false_eq_true, if_false, Bool.and_false]
            have hc := flat (aToNum env) (asNumber env) fun a ha => aToNum_cells env a (hf a ha)
            rw [aConcat_step env o as _ false h1 h2 (by rw [hT, hN, bT, bN]; rfl),
              aConcat_default env o.off rfl rfl _ (by simpa using hne)
              (by
                intro b hb
                obtain ⟨a, ha, rfl⟩ := List.mem_map.mp hb
                rw [aToNum_cells env a (hf a ha)]
                simpa using hcells a ha)
              (by
                intro b hb
                obtain ⟨a, ha, rfl⟩ := List.mem_map.mp hb
                have := hf a ha
                cases a <;> simp_all [aToNum, ACh.full]), hc]
            simp only [fetched, hres, hn, hN, hnum, Bool.and_self, if_true]
            rfl
          · have hfirst : ∃ pre a post, as = pre ++ a :: post ∧ (∀ b ∈ pre, b.cls ≠ .utf8) ∧ a.cls = .utf8 ∧
                numericTexts env a.cells = false := by
              rw [List.any_eq_true] at hS
              cases hfi : as.find? (fun a => a.cls == .utf8) with
              | none =>
                obtain ⟨a, ha, hc⟩ := hS
                exact absurd hc (List.find?_eq_none.mp hfi a ha)
              | some a =>
                obtain ⟨hp, pre, post, he, hpre⟩ := List.find?_eq_some_iff_append.mp hfi
                have ha : a ∈ as := by rw [he]; simp
                refine ⟨pre, a, post, he, fun b hb => by simpa using hpre b hb, by simpa using hp, ?_⟩
                rw [Bool.eq_false_iff]
                intro hnum
                have ht : a.cells.any isText = true := by rw [any_text a (hcells a ha) (hf a ha), hp]
                rw [List.any_eq_true] at ht
                obtain ⟨v, hv, hv2⟩ := ht
                cases v with
                | none => simp [isText] at hv2
                | some v => cases v with
                  | str s =>
                    have := numericTexts_mem.mp hnum s hv
                    rw [hnone s (List.mem_flatMap.mpr ⟨a, ha, hv⟩)] at this
                    simp at this
                  | _ => simp [isText] at hv2
            have hl := aNumLoop_first env as hfirst
            refine same true (by simp [aConvert, hT, hN, hS, hn, hl]) (by simp [aConvert, hT, hN, hS, ConcatOpts.off]) ?_
            rw [hres, if_neg]
            simp only [hn, hN, Bool.true_and, Bool.not_eq_true]
            obtain ⟨pre, a, post, he, _, _, hfa⟩ := hfirst
            rw [Bool.eq_false_iff]
            intro hnum
            rw [Bool.eq_false_iff] at hfa
            refine hfa (numericTexts_mem.mpr fun s hs => numericTexts_mem.mp hnum s ?_)
            exact List.mem_flatMap.mpr ⟨a, by rw [he]; simp, hs⟩

theorem Resolvable.off (env : Env) {o : ConcatOpts} (hd : o.confDt = false) (hn : o.confNum = false) (inl : Bool)
    (cells : List (Option Val)) : Resolvable env o inl cells :=
  ⟨fun h => by rw [hn] at h; simp at h, fun h => by rw [hd] at h; simp at h⟩

theorem Resolvable.mono {env : Env} {o : ConcatOpts} {i j : Bool} {cells : List (Option Val)}
    (h : Resolvable env o i cells) (hij : i = true → j = true) : Resolvable env o j cells :=
  ⟨h.num, fun hd ht => (h.tmp hd ht).imp_right fun ⟨hi, hm⟩ => ⟨hij hi, hm⟩⟩

theorem Resolvable.sub {env : Env} {o : ConcatOpts} {inl : Bool} {cells w : List (Option Val)}
    (h : Resolvable env o inl cells) (hw : ∀ v, some v ∈ w → some v ∈ cells) : Resolvable env o inl w := by
  have up : ∀ p : Option Val → Bool, p none = false → w.any p = true → cells.any p = true := by
    intro p hp ht
    rw [List.any_eq_true] at ht ⊢
    obtain ⟨v, hv, e⟩ := ht
    cases v with
    | none => rw [hp] at e; cases e
    | some v => exact ⟨_, hw v hv, e⟩
  refine ⟨fun hn hk => (h.num hn (hk.imp (up isNum rfl) (up isTs rfl))).imp (fun h s hs => h s (hw _ hs))
    (fun h s hs => h s (hw _ hs)), fun hd ht => ?_⟩
  have hc : cells.any isTs = true := up isTs rfl ht
  refine (h.tmp hd hc).imp (fun this => ?_) fun ⟨hi, hm⟩ => ⟨hi, hm.imp (fun h s hs => h s (hw _ hs))
    (fun h s hs => h s (hw _ hs))⟩
  rw [List.any_eq_false] at this ⊢
  intro v hv
  cases v with
  | none => simp [isText]
  | some v => exact this _ (hw v hv)

theorem cellAt_mem {l : List (Option Val)} {v : Val} : some v ∈ l ↔ ∃ i, cellAt l i = some v := by
  constructor
  · intro h
    obtain ⟨i, hi, e⟩ := List.mem_iff_getElem.mp h
    exact ⟨i, by unfold cellAt; rw [List.getElem?_eq_getElem hi, e]; rfl⟩
  · rintro ⟨i, hi⟩
    unfold cellAt at hi
    cases hc : l[i]? with
    | none => rw [hc] at hi; simp at hi
    | some w =>
      rw [hc] at hi
      simp only [Option.join_some] at hi
      subst hi
      exact List.mem_of_getElem? hc

theorem resolvable_congr {env : Env} {o : ConcatOpts} {inl : Bool} {l r : List (Option Val)}
    (h : ∀ i, cellAt l i = cellAt r i) (hr : Resolvable env o inl r) : Resolvable env o inl l :=
  hr.sub fun v hv => by
    rw [cellAt_mem] at hv ⊢
    obtain ⟨i, hi⟩ := hv
    exact ⟨i, by rw [← h i]; exact hi⟩

theorem Resolvable.nil (env : Env) (o : ConcatOpts) (inl : Bool) : Resolvable env o inl [] :=
  ⟨fun _ _ => .inl (by simp), fun _ h => by simp at h⟩

end Rxls
