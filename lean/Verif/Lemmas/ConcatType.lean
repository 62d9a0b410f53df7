import Verif.Lemmas.ConcatSpec

/-! # Type decision and text fallback -/

namespace Rxls

theorem castVals_utf8 (env : Env) (l : List (Option Val)) :
    castVals env .utf8 l = .ok (l.map (Option.map fun v => .str (cellText env v))) := by
  induction l with
  | nil => rfl
  | cons v l ih =>
    rw [castVals_cons, ih]
    cases v with
    | none => rfl
    | some w => cases w <;> rfl

theorem mapPy_utf8 (env : Env) (as : List ACh) :
    mapPy (fun a => castVals env .utf8 a.cells) as =
      .ok (as.map fun a => a.cells.map (Option.map fun v => .str (cellText env v))) := by
  induction as with
  | nil => rfl
  | cons a as ih => rw [mapPy, ih, castVals_utf8]; rfl

theorem castVals_ok (env : Env) (dt : DType) (l : List (Option Val))
    (h : ∀ w, some w ∈ l → ∃ x, castVal env dt w = .ok x) : ∃ r, castVals env dt l = .ok r := by
  induction l with
  | nil => exact ⟨[], rfl⟩
  | cons v l ih =>
    obtain ⟨r, hr⟩ := ih fun w hw => h w (by simp [hw])
    rw [castVals_cons, hr]
    cases v with
    | none => exact ⟨_, rfl⟩
    | some w =>
      obtain ⟨x, hx⟩ := h w (by simp)
      simp only [hx]
      exact ⟨_, rfl⟩

theorem mapPy_ok {α β : Type} (f : α → Py β) (as : List α) (h : ∀ a ∈ as, ∃ b, f a = .ok b) :
    ∃ bs, mapPy f as = .ok bs ∧ bs.length = as.length := by
  induction as with
  | nil => exact ⟨[], rfl, rfl⟩
  | cons a as ih =>
    obtain ⟨bs, hb, hl⟩ := ih fun a ha => h a (by simp [ha])
    obtain ⟨b, hb'⟩ := h a (by simp)
    exact ⟨b :: bs, by rw [mapPy, hb', hb], by simp [hl]⟩

/-- The final cast succeeds. -/
def ACh.fits (dt : DType) (a : ACh) : Prop :=
  dt = .utf8 ∨ a.cls = .null ∨ (dt = .ts ∧ a.cls = .temp) ∨ ((dt = .f8 ∨ dt = .i8) ∧ a.cls = .nums)

theorem ACh.fits.cast {dt : DType} {a : ACh} (env : Env) (h : a.fits dt) : ∃ r, castVals env dt a.cells = .ok r := by
  rcases h with rfl | h | ⟨rfl, h⟩ | ⟨hd, h⟩
  · exact ⟨_, castVals_utf8 env _⟩
  · cases a <;> simp only [ACh.cls, reduceCtorEq] at h
    exact ⟨_, castVals_none env dt _⟩
  · cases a <;> simp only [ACh.cls, reduceCtorEq] at h
    refine castVals_ok env _ _ fun w hw => ?_
    simp only [ACh.cells, List.mem_map] at hw
    obtain ⟨x, _, hx⟩ := hw
    injection hx with hx
    subst hx; exact ⟨_, rfl⟩
  · cases a <;> simp only [ACh.cls, reduceCtorEq] at h
    refine castVals_ok env _ _ fun w hw => ?_
    simp only [ACh.cells, List.mem_map] at hw
    obtain ⟨x, _, hx⟩ := hw
    injection hx with hx
    subst hx
    rcases hd with rfl | rfl <;> exact ⟨_, rfl⟩

theorem aConcat_of (env : Env) (o : ConcatOpts) (as bs : List ACh) (f : Bool) (dt : DType)
    (hne : as ≠ []) (h1 : aConvert env o as = .ok (bs, f))
    (h2 : aType o (as.any fun a => a.cls == .temp) (as.any fun a => a.cls == .nums) f bs = .ok dt)
    (h3 : ∀ a ∈ bs, a.fits dt) : ∃ r, aConcat env o as = .ok r ∧ r.dtype = dt := by
  obtain ⟨vs, hv, hl⟩ := mapPy_ok (fun a => castVals env dt a.cells) bs fun a ha => (h3 a ha).cast env
  have hlen : bs.length = as.length := (conv_convert env o as bs f h1).length_eq.symm
  unfold aConcat
  simp only [h1, h2, hv]
  have : vs.isEmpty = false := by
    cases vs with
    | nil => simp at hl; rw [← hl] at hlen; exact absurd (List.length_eq_zero_iff.mp hlen.symm) hne
    | cons => rfl
  rw [this]
  exact ⟨_, rfl, rfl⟩

theorem f8IsI8_all (l : List F64) (p : Nat) : f8IsI8 l p = l.all fun x => f8IsI8 [x] p := by
  induction l with
  | nil => rfl
  | cons x l ih =>
    rw [List.all_cons, ← ih]
    simp only [f8IsI8, List.any_cons, List.any_nil, Bool.or_false, Bool.not_or]

theorem aNumeric_texts (env : Env) : ∀ (l : List (Option Str)),
    (∃ xs, aNumeric env l = .ok xs ∧ numericTexts env (l.map (Option.map Val.str)) = true ∧
      xs = (l.map (Option.map Val.str)).map (cellNumber env)) ∨
    (∃ e, aNumeric env l = .error e ∧ numericTexts env (l.map (Option.map Val.str)) = false)
  | [] => .inl ⟨[], rfl, rfl, rfl⟩
  | none :: l => by
    rcases aNumeric_texts env l with ⟨xs, h1, h2, h3⟩ | ⟨e, h1, h2⟩
    · refine .inl ⟨.fin 0 :: xs, by rw [aNumeric, h1], ?_, ?_⟩
      · simpa [numericTexts] using h2
      · rw [h3]; rfl
    · refine .inr ⟨e, by rw [aNumeric, h1], ?_⟩
      simpa [numericTexts] using h2
  | some s :: l => by
    cases hs : env.parseF8 s with
    | none => exact .inr ⟨_, by rw [aNumeric, hs], by simp [numericTexts, hs]⟩
    | some x =>
      rcases aNumeric_texts env l with ⟨xs, h1, h2, h3⟩ | ⟨e, h1, h2⟩
      · refine .inl ⟨x :: xs, by rw [aNumeric, hs, h1], ?_, ?_⟩
        · simp only [numericTexts] at h2
          simp only [numericTexts, List.map_cons, List.all_cons, h2, Option.map_some, hs, Option.isSome_some,
            Bool.and_true]
        · rw [h3]; simp [cellNumber, hs]
      · refine .inr ⟨e, by rw [aNumeric, hs, h1], ?_⟩
        simp only [numericTexts] at h2
        simp only [numericTexts, List.map_cons, List.all_cons, h2, Bool.and_false]

theorem asStr_map (l : List (Option Str)) : (l.map (Option.map Val.str)).map asStr = l := by
  rw [List.map_map]
  conv_rhs => rw [← List.map_id l]
  apply List.map_congr_left
  intro x _
  cases x <;> rfl

/-- Strings that convert in a temporal column. -/
def ACh.dateable (env : Env) (o : ConcatOpts) (a : ACh) : Bool :=
  a.cls != .utf8 || datedTexts env o.formats a.cells || (o.confNum && numericTexts env a.cells)

theorem aStrTmp_num (env : Env) (o : ConcatOpts) (a : ACh) (hr : ∀ l, a ≠ .str l true) :
    ∃ b, aStrTmp env o (aNumTmp a) = .ok (b, !a.dateable env o) ∧
      (a.dateable env o → b.cls = .temp ∨ b.cls = .null) := by
  cases a with
  | nul n => exact ⟨_, rfl, fun _ => .inr rfl⟩
  | num l => exact ⟨_, rfl, fun _ => .inl rfl⟩
  | tmp l => exact ⟨_, rfl, fun _ => .inl rfl⟩
  | str l raw =>
    cases raw with
    | true => exact absurd rfl (hr l)
    | false =>
      have hcls : ((ACh.str l false).cls != .utf8) = false := rfl
      simp only [aNumTmp, aStrTmp, Bool.false_eq_true, if_false, ACh.dateable, hcls, Bool.false_or]
      cases hm : mfStrptime env.strptime env.formats l o.formats true with
      | ok t =>
        have hd : datedTexts env o.formats (ACh.str l false).cells = true := by
          simp only [datedTexts, ACh.cells, asStr_map, hm]
        rw [hd]
        exact ⟨_, rfl, fun _ => .inl rfl⟩
      | error e =>
        have hd : datedTexts env o.formats (ACh.str l false).cells = false := by
          simp only [datedTexts, ACh.cells, asStr_map, hm]
        rw [hd]
        simp only [Bool.false_or]
        cases o.confNum with
        | false => exact ⟨_, rfl, fun h => by simp at h⟩
        | true =>
          simp only [if_true, Bool.true_and]
          rcases aNumeric_texts env l with ⟨xs, h1, h2, _⟩ | ⟨e, h1, h2⟩
          · rw [h1]
            have h2' : numericTexts env (ACh.str l false).cells = true := h2
            rw [h2']
            exact ⟨_, rfl, fun _ => .inl rfl⟩
          · rw [h1]
            have h2' : numericTexts env (ACh.str l false).cells = false := h2
            rw [h2']
            exact ⟨_, rfl, fun h => by simp at h⟩

theorem mapPy_strTmp (env : Env) (o : ConcatOpts) : ∀ (as : List ACh), (∀ a ∈ as, ∀ l, a ≠ .str l true) →
    ∃ bs, mapPy (aStrTmp env o) (as.map aNumTmp) = .ok bs ∧
      bs.any (·.2) = !(as.all (ACh.dateable env o)) ∧
      (as.all (ACh.dateable env o) → ∀ b ∈ bs.map (·.1), b.cls = .temp ∨ b.cls = .null)
  | [], _ => ⟨[], rfl, rfl, by simp⟩
  | a :: as, h => by
    obtain ⟨bs, h1, h2, h3⟩ := mapPy_strTmp env o as fun a ha => h a (by simp [ha])
    obtain ⟨b, h4, h5⟩ := aStrTmp_num env o a (h a (by simp))
    refine ⟨_, by rw [List.map_cons, mapPy, h4, h1], ?_, ?_⟩
    · rw [List.any_cons, List.all_cons, h2, Bool.not_and]
    · intro hall x hx
      rw [List.all_cons, Bool.and_eq_true] at hall
      rw [List.map_cons, List.mem_cons] at hx
      rcases hx with rfl | hx
      · exact h5 hall.1
      · exact h3 hall.2 x hx

/-- Numbers of a run are integers. -/
def ACh.whole (env : Env) (p : Nat) (a : ACh) : Bool :=
  a.cls == .null || a.cells.all fun v => f8IsI8 [cellNumber env v] p

def ACh.numericOk (env : Env) (a : ACh) : Bool := a.cls != .utf8 || numericTexts env a.cells

theorem num_whole (env : Env) (p : Nat) (l : List F64) : (ACh.num l).whole env p = f8IsI8 l p := by
  rw [f8IsI8_all]
  simp only [ACh.whole, ACh.cls, ACh.cells]
  have : (Cls.nums == Cls.null) = false := rfl
  rw [this, Bool.false_or, List.all_map]
  rfl

theorem str_whole (env : Env) (p : Nat) (l : List (Option Str)) (raw : Bool) (xs : List F64)
    (h : xs = (l.map (Option.map Val.str)).map (cellNumber env)) :
    (ACh.str l raw).whole env p = f8IsI8 xs p := by
  rw [f8IsI8_all, h, List.all_map]
  simp only [ACh.whole, ACh.cls, ACh.cells]
  have : (Cls.utf8 == Cls.null) = false := rfl
  rw [this, Bool.false_or]
  rfl

theorem aNumLoop_spec (env : Env) (p : Nat) : ∀ (as : List ACh), (∀ a ∈ as, a.cls ≠ .temp) →
    (aNumLoop env as).2 = !(as.all (ACh.numericOk env)) ∧
    (as.all (ACh.numericOk env) → (∀ b ∈ (aNumLoop env as).1, b.cls = .nums ∨ b.cls = .null) ∧
      aInt p (aNumLoop env as).1 = .ok (as.all (ACh.whole env p)))
  | [], _ => ⟨rfl, fun _ => ⟨by simp [aNumLoop], rfl⟩⟩
  | a :: as, h => by
    obtain ⟨h1, h2⟩ := aNumLoop_spec env p as fun a ha => h a (by simp [ha])
    rcases hr : aNumLoop env as with ⟨bs, f⟩
    rw [hr] at h1 h2
    simp only at h1 h2
    subst h1
    cases a with
    | tmp l => exact absurd rfl (h (.tmp l) (by simp))
    | nul n =>
      have e1 : (ACh.nul n).numericOk env = true := rfl
      have e2 : (ACh.nul n).whole env p = true := rfl
      simp only [aNumLoop, hr, List.all_cons, e1, e2, Bool.true_and]
      refine ⟨trivial, fun hall => ⟨?_, ?_⟩⟩
      · intro b hb
        rcases List.mem_cons.mp hb with rfl | hb
        · exact .inr rfl
        · exact (h2 hall).1 b hb
      · rw [aInt]; exact (h2 hall).2
    | num l =>
      have e1 : (ACh.num l).numericOk env = true := rfl
      simp only [aNumLoop, hr, List.all_cons, e1, Bool.true_and, num_whole]
      refine ⟨trivial, fun hall => ⟨?_, ?_⟩⟩
      · intro b hb
        rcases List.mem_cons.mp hb with rfl | hb
        · exact .inl rfl
        · exact (h2 hall).1 b hb
      · rw [aInt, (h2 hall).2]
        cases f8IsI8 l p <;> rfl
    | str l raw =>
      rcases aNumeric_texts env l with ⟨xs, h3, h4, h5⟩ | ⟨e, h3, h4⟩
      · have e1 : (ACh.str l raw).numericOk env = true := by
          simp only [ACh.numericOk, ACh.cells, h4, Bool.or_true]
        simp only [aNumLoop, h3, hr, List.all_cons, e1, Bool.true_and, str_whole env p l raw xs h5]
        refine ⟨trivial, fun hall => ⟨?_, ?_⟩⟩
        · intro b hb
          rcases List.mem_cons.mp hb with rfl | hb
          · exact .inl rfl
          · exact (h2 hall).1 b hb
        · rw [aInt, (h2 hall).2]
          cases f8IsI8 xs p <;> rfl
      · have e1 : (ACh.str l raw).numericOk env = false := by
          simp only [ACh.numericOk, ACh.cells, h4, Bool.or_false]; rfl
        simp only [aNumLoop, h3, List.all_cons, e1, Bool.false_and]
        exact ⟨rfl, fun h => by simp at h⟩

theorem aInt_plain (env : Env) (p : Nat) (as : List ACh) (h : ∀ a ∈ as, a.cls = .nums ∨ a.cls = .null) :
    aInt p as = .ok (as.all (ACh.whole env p)) := by
  induction as with
  | nil => rfl
  | cons a as ih =>
    have ih := ih fun a ha => h a (by simp [ha])
    have ha := h a (by simp)
    cases a with
    | nul n => rw [aInt, ih, List.all_cons]; rfl
    | num l =>
      rw [aInt, ih, List.all_cons, num_whole]
      cases f8IsI8 l p <;> rfl
    | str l r => simp [ACh.cls] at ha
    | tmp l => simp [ACh.cls] at ha

/-- C30: the result exists and has the decided type. -/
theorem aConcat_type (env : Env) (o : ConcatOpts) (as : List ACh) (hne : as ≠ [])
    (hraw : (as.any fun a => a.cls == .temp) = true → o.confDt = true → ∀ a ∈ as, ∀ l, a ≠ .str l true) :
    ∃ r, aConcat env o as = .ok r ∧ r.dtype = decideType env o (as.map ACh.run) := by
  have eT : ((as.map ACh.run).any fun r => r.1 == .temp) = as.any fun a => a.cls == .temp := by
    rw [List.any_map]; rfl
  have eN : ((as.map ACh.run).any fun r => r.1 == .nums) = as.any fun a => a.cls == .nums := by
    rw [List.any_map]; rfl
  have eS : ((as.map ACh.run).any fun r => r.1 == .utf8) = as.any fun a => a.cls == .utf8 := by
    rw [List.any_map]; rfl
  have eD : ((as.map ACh.run).all fun r => r.1 != .utf8 || datedTexts env o.formats r.2 ||
        (o.confNum && numericTexts env r.2)) = as.all (ACh.dateable env o) := by
    rw [List.all_map]; rfl
  have eM : ((as.map ACh.run).all fun r => r.1 != .utf8 || numericTexts env r.2) = as.all (ACh.numericOk env) := by
    rw [List.all_map]; rfl
  have eW : ((as.map ACh.run).all fun r => r.1 == .null || r.2.all (fun v => f8IsI8 [cellNumber env v] o.prec))
      = as.all (ACh.whole env o.prec) := by
    rw [List.all_map]; rfl
  unfold decideType
  simp only [eT, eN, eS, eD, eM, eW]
  have hnone : ∀ k, (as.any fun a => a.cls == k) = false → ∀ a ∈ as, a.cls ≠ k := by
    intro k h a ha hk
    rw [List.any_eq_false] at h
    exact h a ha (by simp [hk])
  cases hT : as.any fun a => a.cls == .temp with
  | true =>
    simp only [if_true]
    cases hd : o.confDt with
    | true =>
      obtain ⟨bs, h1, h2, h3⟩ := mapPy_strTmp env o as (hraw hT hd)
      have hconv : aConvert env o as = .ok (bs.map (·.1), bs.any (·.2)) := by
        unfold aConvert
        simp only [hT, hd, if_true, h1]
      rw [h2] at hconv
      cases hall : as.all (ACh.dateable env o) with
      | true =>
        have : (if (!(as.any fun a => a.cls == .nums) && !(as.any fun a => a.cls == .utf8)) = true then DType.ts
            else if (true && true) = true then .ts else .utf8) = .ts := by split <;> rfl
        rw [this]
        rw [hall] at hconv
        refine aConcat_of env o as _ _ .ts hne hconv (by simp [aType, hT]) fun b hb => ?_
        rcases h3 hall b hb with h | h
        · exact .inr (.inr (.inl ⟨rfl, h⟩))
        · exact .inr (.inl h)
      | false =>
        rw [hall] at hconv
        have hns : (!(as.any fun a => a.cls == .nums) && !(as.any fun a => a.cls == .utf8)) = false := by
          cases hS : as.any fun a => a.cls == .utf8 with
          | true => simp
          | false =>
            exfalso
            rw [List.all_eq_false] at hall
            obtain ⟨a, ha, hx⟩ := hall
            have := hnone .utf8 hS a ha
            exact hx (by simp [ACh.dateable, this])
        rw [hns]
        simp only [Bool.and_false, Bool.false_eq_true, if_false]
        exact aConcat_of env o as _ _ .utf8 hne hconv (by simp [aType]) fun b _ => .inl rfl
    | false =>
      have hconv : aConvert env o as =
          .ok (as, (as.any fun a => a.cls == .nums) || (as.any fun a => a.cls == .utf8)) := by
        unfold aConvert
        simp only [hT, hd, if_true, Bool.false_eq_true, if_false]
      cases hN : as.any fun a => a.cls == .nums <;> cases hS : as.any fun a => a.cls == .utf8
      · rw [hN, hS] at hconv
        refine aConcat_of env o as _ _ .ts hne hconv (by simp [aType, hT]) fun b hb => ?_
        have h1 := hnone _ hN b hb
        have h2 := hnone _ hS b hb
        cases hc : b.cls with
        | null => exact .inr (.inl hc)
        | utf8 => exact absurd hc h2
        | temp => exact .inr (.inr (.inl ⟨rfl, hc⟩))
        | nums => exact absurd hc h1
      all_goals
        rw [hN, hS] at hconv
        exact aConcat_of env o as _ _ .utf8 hne hconv (by simp [aType]) fun b _ => .inl rfl
  | false =>
    have hnT := hnone _ hT
    simp only [Bool.false_eq_true, if_false]
    cases hN : as.any fun a => a.cls == .nums with
    | false =>
      have hconv : aConvert env o as = .ok (as, false) := by
        unfold aConvert
        simp [hT, hN]
      exact aConcat_of env o as _ _ .utf8 hne hconv (by simp [aType, hT, hN]) fun b _ => .inl rfl
    | true =>
      simp only [if_true]
      cases hS : as.any fun a => a.cls == .utf8 with
      | false =>
        have hnS := hnone _ hS
        have hplain : ∀ a ∈ as, a.cls = .nums ∨ a.cls = .null := by
          intro a ha
          cases hc : a.cls with
          | null => exact .inr rfl
          | utf8 => exact absurd hc (hnS a ha)
          | temp => exact absurd hc (hnT a ha)
          | nums => exact .inl rfl
        have hconv : aConvert env o as = .ok (as, false) := by
          unfold aConvert
          simp [hT, hN, hS]
        simp only [Bool.not_false, Bool.true_or, if_true]
        refine aConcat_of env o as _ _ _ hne hconv (by
          simp only [aType, hT, hN, Bool.false_eq_true, if_false, if_true, aInt_plain env o.prec as hplain]) fun b hb => ?_
        rcases hplain b hb with h | h
        · refine .inr (.inr (.inr ⟨?_, h⟩))
          split
          · exact .inr rfl
          · exact .inl rfl
        · exact .inr (.inl h)
      | true =>
        cases hc : o.confNum with
        | false =>
          have hconv : aConvert env o as = .ok (as, true) := by
            unfold aConvert
            simp [hT, hN, hS, hc]
          simp only [Bool.not_true, Bool.false_and, Bool.or_false, Bool.false_eq_true, if_false]
          exact aConcat_of env o as _ _ .utf8 hne hconv (by simp [aType]) fun b _ => .inl rfl
        | true =>
          have hconv : aConvert env o as = .ok (aNumLoop env as) := by
            unfold aConvert
            simp [hT, hN, hS, hc]
          obtain ⟨h1, h2⟩ := aNumLoop_spec env o.prec as hnT
          rcases hr : aNumLoop env as with ⟨bs, f⟩
          rw [hr] at h1 h2 hconv
          simp only at h1 h2
          subst h1
          cases hall : as.all (ACh.numericOk env) with
          | false =>
            rw [hall] at hconv
            simp only [Bool.not_true, Bool.and_false, Bool.or_false, Bool.false_eq_true, if_false]
            exact aConcat_of env o as _ _ .utf8 hne hconv (by simp [aType]) fun b _ => .inl rfl
          | true =>
            rw [hall] at hconv
            obtain ⟨h3, h4⟩ := h2 hall
            simp only [Bool.not_true, Bool.true_and, Bool.or_true, if_true]
            refine aConcat_of env o as _ _ _ hne hconv (by
              simp only [aType, hT, hN, Bool.not_true, Bool.false_eq_true, if_false, if_true, h4]) fun b hb => ?_
            rcases h3 b hb with h | h
            · refine .inr (.inr (.inr ⟨?_, h⟩))
              split
              · exact .inr rfl
              · exact .inl rfl
            · exact .inr (.inl h)

/-- Fallback without any conversion: every cell keeps its text. -/
theorem aConcat_text (env : Env) (o : ConcatOpts) (as : List ACh) (hne : as ≠ [])
    (h1 : aConvert env o as = .ok (as, true)) :
    aConcat env o as = .ok ⟨.utf8, (as.flatMap ACh.cells).map (Option.map fun v => .str (cellText env v))⟩ := by
  unfold aConcat
  simp only [h1, aType, if_true, mapPy_utf8]
  have : (as.map fun a => a.cells.map (Option.map fun v => Val.str (cellText env v))).isEmpty = false := by
    cases as with
    | nil => exact absurd rfl hne
    | cons => rfl
  rw [this]
  simp [List.map_flatMap, List.flatMap_def]
  rfl

end Rxls
