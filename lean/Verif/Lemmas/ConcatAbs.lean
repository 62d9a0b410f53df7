import Verif.Lemmas.Concat

/-! # concatenate as a function of what the chunks are -/

namespace Rxls

/-- Numbers become moments. -/
def aNumTmp : ACh → ACh
  | .num l => .tmp (l.map f8ToMsWin)
  | a => a

/-- Strings become moments; `true` when they cannot. -/
def aStrTmp (env : Env) (o : ConcatOpts) : ACh → Py (ACh × Bool)
  | .str l raw =>
    if raw then .error .arrowNotImplemented
    else match mfStrptime env.strptime env.formats l o.formats true with
      | .ok t => .ok (.tmp t, false)
      | .error _ =>
        if o.confNum then
          match aNumeric env l with
          | .ok xs => .ok (.tmp (xs.map f8ToMsWin), false)
          | .error _ => .ok (.str l raw, true)
        else .ok (.str l raw, true)
  | a => .ok (a, false)

/-- Map until the first exception. -/
def mapPy {α β : Type} (f : α → Py β) : List α → Py (List β)
  | [] => .ok []
  | a :: as => match f a with
    | .error e => .error e
    | .ok b => match mapPy f as with
      | .error e => .error e
      | .ok bs => .ok (b :: bs)

/-- Strings become numbers, up to the first chunk that cannot be converted. -/
def aNumLoop (env : Env) : List ACh → List ACh × Bool
  | [] => ([], false)
  | .str l raw :: as =>
    match aNumeric env l with
    | .ok xs => match aNumLoop env as with | (bs, f) => (.num xs :: bs, f)
    | .error _ => (.str l raw :: as, true)
  | a :: as => match aNumLoop env as with | (bs, f) => (a :: bs, f)

def aConvert (env : Env) (o : ConcatOpts) (as : List ACh) : Py (List ACh × Bool) :=
  let hasT := as.any fun a => a.cls == .temp
  let hasN := as.any fun a => a.cls == .nums
  let hasS := as.any fun a => a.cls == .utf8
  if hasT then
    if o.confDt then
      match mapPy (aStrTmp env o) (as.map aNumTmp) with
      | .error e => .error e
      | .ok bs => .ok (bs.map (·.1), bs.any (·.2))
    else .ok (as, hasN || hasS)
  else if hasN && hasS then
    if o.confNum then .ok (aNumLoop env as)
    else .ok (as, true)
  else .ok (as, false)

def aInt (prec : Nat) : List ACh → Py Bool
  | [] => .ok true
  | .nul _ :: as => aInt prec as
  | .num l :: as => if f8IsI8 l prec then aInt prec as else .ok false
  | .str _ _ :: _ => .error .typeError
  | .tmp _ :: _ => .error .typeError

def aType (o : ConcatOpts) (hasT hasN fallback : Bool) (as : List ACh) : Py DType :=
  if fallback then .ok .utf8
  else if hasT then .ok .ts
  else if hasN then
    match aInt o.prec as with
    | .ok b => .ok (if b then .i8 else .f8)
    | .error e => .error e
  else .ok .utf8

def aConcat (env : Env) (o : ConcatOpts) (as : List ACh) : Py Arr :=
  let hasT := as.any fun a => a.cls == .temp
  let hasN := as.any fun a => a.cls == .nums
  match aConvert env o as with
  | .error e => .error e
  | .ok (bs, fallback) =>
    match aType o hasT hasN fallback bs with
    | .error e => .error e
    | .ok dt =>
      match mapPy (fun a => castVals env dt a.cells) bs with
      | .error e => .error e
      | .ok arrs => if arrs.isEmpty then .error .valueError else .ok ⟨dt, arrs.flatten⟩

/-! ## Slots -/

/-- A chunk changed only by looking up its strings and decoding its numbers. -/
def Chunk.Keeps (c c' : Chunk) : Prop :=
  c'.size = c.size ∧ ∀ a, Abs c a → ∃ a', Abs c' a' ∧ a'.looked = a.looked ∧
    ((∀ l, a ≠ .str l true) → ∀ l, a' ≠ .str l true)

theorem Chunk.Keeps.refl (c : Chunk) : c.Keeps c := ⟨rfl, fun a h => ⟨a, h, rfl, id⟩⟩

theorem Chunk.Keeps.trans {a b c : Chunk} (h1 : a.Keeps b) (h2 : b.Keeps c) : a.Keeps c := by
  refine ⟨h2.1.trans h1.1, fun x hx => ?_⟩
  obtain ⟨y, hy, e, r⟩ := h1.2 x hx
  obtain ⟨z, hz, e2, r2⟩ := h2.2 y hy
  exact ⟨z, hz, e2.trans e, fun h => r2 (r h)⟩

theorem Abs.unique {c : Chunk} {a b : ACh} (h1 : Abs c a) (h2 : Abs c b) : a = b := by
  cases h1 with
  | shared l sz sr vs h =>
    cases h2 with
    | shared _ _ _ ws h' =>
      rw [h] at h'
      rw [List.map_injective_iff.mpr (Option.some_injective _) h']
  | num l t sz sr h => cases h2 <;> simp_all
  | serial => cases h2 <;> simp_all
  | ms l t sz sr h => cases h2; simp_all
  | _ => cases h2; rfl

/-- The chunk is not a run of shared-string references. -/
def Chunk.Resolved (c : Chunk) : Prop := ∀ l, c.data ≠ .idx l

theorem Resolved.notRaw {c : Chunk} {a : ACh} (h : c.Resolved) (ha : Abs c a) : ∀ l, a ≠ .str l true := by
  intro l
  cases ha with
  | shared l sz sr vs hv => exact absurd rfl (h l)
  | _ => simp

theorem notRaw.resolved {c : Chunk} {a : ACh} (ha : Abs c a) (h : ∀ l, a ≠ .str l true) : c.Resolved := by
  intro l
  cases ha with
  | shared l sz sr vs hv => exact absurd rfl (h _)
  | _ => simp

/-- `chunks[i]` is `a`; the object the caller holds and whether it is still in the list are tracked. -/
structure SlotAbs (s : Slot) (a : ACh) : Prop where
  cur : Abs s.cur a

/-- An object that is no longer in the list has its shared strings looked up. -/
def Slot.Fixed (s : Slot) : Prop := s.rep ≠ none → s.obj.Resolved

/-- Relation between a slot before and after a step. -/
structure Slot.Keeps (s s' : Slot) : Prop where
  obj : s.obj.Keeps s'.obj
  rep : s'.rep = none → s.rep = none
  fixed : s.Fixed → s'.Fixed

theorem Slot.Keeps.refl (s : Slot) : s.Keeps s := ⟨.refl _, id, id⟩
theorem Slot.Keeps.trans {a b c : Slot} (h1 : a.Keeps b) (h2 : b.Keeps c) : a.Keeps c :=
  ⟨h1.obj.trans h2.obj, fun h => h1.rep (h2.rep h), fun h => h2.fixed (h1.fixed h)⟩

theorem mutate_cur (s : Slot) (c : Chunk) : (s.mutate c).cur = c := by
  rcases s with ⟨o, _ | r⟩ <;> rfl

theorem mutate_keeps (s : Slot) (c : Chunk) (h : s.cur.Keeps c) : s.Keeps (s.mutate c) := by
  rcases s with ⟨o, _ | r⟩
  · exact ⟨h, fun _ => rfl, fun _ h => absurd rfl h⟩
  · exact ⟨.refl _, fun h => by simp [Slot.mutate] at h, fun h _ => h (by simp)⟩

theorem mutate_rep (s : Slot) (c : Chunk) : (s.mutate c).rep.isNone = s.rep.isNone := by
  rcases s with ⟨o, _ | r⟩ <;> rfl

theorem replace_some_cur (s : Slot) (c : Chunk) : (s.replace (some c)).cur = c := rfl

theorem replace_keeps (s : Slot) (c : Option Chunk) (hr : s.cur.Resolved) : s.Keeps (s.replace c) := by
  cases c with
  | none => exact .refl _
  | some c =>
    refine ⟨.refl _, fun h => by simp [Slot.replace] at h, fun h _ => ?_⟩
    rcases s with ⟨o, _ | r⟩
    · exact hr
    · exact h (by simp)

theorem keeps_of_abs {c c' : Chunk} {a : ACh} (h : Abs c a) (h' : Abs c' a.looked) (hs : c'.size = c.size) :
    c.Keeps c' := by
  refine ⟨hs, fun b hb => ?_⟩
  rw [hb.unique h]
  refine ⟨_, h', ACh.looked_looked a, fun _ l => ?_⟩
  cases a <;> simp [ACh.looked]

/-- Pass over the slots: if every step is a function of `chunks[i]` then so is the pass. -/
theorem passSlots_abs {β γ : Type} (f : Slot → Slot × Py β) (g : ACh → Py (ACh × γ)) (R : β → γ → Prop)
    (hf : ∀ s a, Abs s.cur a → (s.Keeps (f s).1) ∧ match g a with
      | .ok (a', y) => ∃ b, (f s).2 = .ok b ∧ Abs (f s).1.cur a' ∧ R b y
      | .error e => (f s).2 = .error e) :
    ∀ (ss : List Slot) (as : List ACh), List.Forall₂ (fun s a => Abs s.cur a) ss as →
      List.Forall₂ Slot.Keeps ss (passSlots f ss).1 ∧
      match mapPy g as with
      | .ok ys => ∃ bs, (passSlots f ss).2 = .ok bs ∧
          List.Forall₂ (fun s a => Abs s.cur a) (passSlots f ss).1 (ys.map (·.1)) ∧
          List.Forall₂ (fun b y => R b y.2) bs ys
      | .error e => (passSlots f ss).2 = .error e := by
  intro ss as h
  induction h with
  | nil => exact ⟨.nil, [], rfl, .nil, .nil⟩
  | @cons s a ss as hsa hrest ih =>
    have h1 := hf s a hsa
    rw [passSlots, mapPy]
    rcases hfs : f s with ⟨s', r⟩
    rw [hfs] at h1
    cases hg : g a with
    | error e =>
      rw [hg] at h1
      simp only at h1 ⊢
      obtain ⟨hk, he⟩ := h1
      subst he
      simp only
      refine ⟨.cons hk ?_, trivial⟩
      exact List.forall₂_same.mpr fun x _ => .refl x
    | ok p =>
      obtain ⟨a', y⟩ := p
      rw [hg] at h1
      obtain ⟨hk, b, he, hab, hR⟩ := h1
      simp only at he
      subst he
      simp only at hk hab ⊢
      rcases hps : passSlots f ss with ⟨ss', r'⟩
      rw [hps] at ih
      cases hm : mapPy g as with
      | error e =>
        rw [hm] at ih
        simp only at ih ⊢
        obtain ⟨ihk, ihe⟩ := ih
        subst ihe
        exact ⟨.cons hk ihk, rfl⟩
      | ok ys =>
        rw [hm] at ih
        simp only at ih ⊢
        obtain ⟨ihk, bs, ihe, iha, ihR⟩ := ih
        subst ihe
        exact ⟨.cons hk ihk, b :: bs, rfl, .cons hab iha, .cons hR ihR⟩

theorem step_num (env : Env) (s : Slot) (a : ACh) (h : Abs s.cur a) :
    (s.Keeps (stepNumTemporal env s).1) ∧
      ∃ b, (stepNumTemporal env s).2 = .ok b ∧ Abs (stepNumTemporal env s).1.cur (aNumTmp a) := by
  have hc := h.cls_eq
  by_cases hn : s.cur.cls = .nums
  · rw [hn] at hc
    cases a with
    | num l =>
      obtain ⟨c', e, h'⟩ := asTemporal_num env [] h
      simp only [stepNumTemporal, hn, if_true, e]
      exact ⟨replace_keeps _ _ (notRaw.resolved h (by simp)), _, rfl, h'⟩
    | _ => simp [ACh.cls] at hc
  · simp only [stepNumTemporal, hn, if_false]
    refine ⟨.refl _, _, rfl, ?_⟩
    cases a with
    | num l => exact absurd hc hn
    | _ => exact h

theorem step_str (env : Env) (o : ConcatOpts) (s : Slot) (a : ACh) (h : Abs s.cur a) :
    (s.Keeps (stepStrTemporal env o s).1) ∧ match aStrTmp env o a with
      | .ok (a', y) => ∃ b, (stepStrTemporal env o s).2 = .ok b ∧ Abs (stepStrTemporal env o s).1.cur a' ∧ b = y
      | .error e => (stepStrTemporal env o s).2 = .error e := by
  have hc := h.cls_eq
  by_cases hu : s.cur.cls = .utf8
  · rw [hu] at hc
    cases a with
    | str l raw =>
      have e1 := asTemporal_str env o.formats h
      simp only [stepStrTemporal, hu, if_true, e1, aStrTmp]
      cases raw with
      | true => exact ⟨.refl _, rfl⟩
      | false =>
        simp only [Bool.false_eq_true, if_false]
        cases hm : mfStrptime env.strptime env.formats l o.formats true with
        | ok t => simp only; exact ⟨replace_keeps _ _ (notRaw.resolved h (by simp)), _, rfl, .ms _ _ _ _ (.inl rfl), rfl⟩
        | error e =>
          have := mfStrptime_err hm
          subst this
          simp only
          cases o.confNum with
          | false => exact ⟨.refl _, _, rfl, h, rfl⟩
          | true =>
            simp only [if_true]
            obtain ⟨c', h1, h2, e2⟩ := asNumeric_abs env h
            rw [e2]
            have hk : s.Keeps (s.mutate c') := mutate_keeps _ _ (keeps_of_abs h h1 h2)
            cases hx : aNumeric env l with
            | ok xs =>
              simp only [Option.getD_some]
              obtain ⟨c'', e3, h3⟩ := asTemporal_num env [] (Abs.num xs 0x28 0 [] (.inl rfl))
              simp only [e3, Option.getD_some]
              exact ⟨hk.trans (replace_keeps _ _ (by rw [mutate_cur]; exact notRaw.resolved h1 (by simp [ACh.looked]))), _, rfl, h3, rfl⟩
            | error e =>
              have := aNumeric_err env l e hx
              subst this
              simp only
              exact ⟨hk, _, rfl, by rw [mutate_cur]; exact h1, rfl⟩
    | _ => simp [ACh.cls] at hc
  · simp only [stepStrTemporal, hu, if_false]
    refine ⟨.refl _, ?_⟩
    cases a with
    | str l raw => exact absurd hc hu
    | _ => exact ⟨_, rfl, h, rfl⟩

theorem strNumericLoop_abs (env : Env) : ∀ (ss : List Slot) (as : List ACh),
    List.Forall₂ (fun s a => Abs s.cur a) ss as →
      List.Forall₂ Slot.Keeps ss (strNumericLoop env ss).1 ∧
      (strNumericLoop env ss).2 = .ok (aNumLoop env as).2 ∧
      List.Forall₂ (fun s a => ∃ a', Abs s.cur a' ∧ a'.looked = a.looked) (strNumericLoop env ss).1
        (aNumLoop env as).1 := by
  intro ss as h
  induction h with
  | nil => exact ⟨.nil, rfl, .nil⟩
  | @cons s a ss as hsa hrest ih =>
    have hc := hsa.cls_eq
    rw [strNumericLoop]
    rcases hsl : strNumericLoop env ss with ⟨ss', r⟩
    rw [hsl] at ih
    rcases hal : aNumLoop env as with ⟨bs, fl⟩
    rw [hal] at ih
    simp only at ih
    obtain ⟨ih1, ih2, ih3⟩ := ih
    subst ih2
    by_cases hu : s.cur.cls = .utf8
    · rw [if_pos hu]
      rw [hu] at hc
      cases a with
      | str l raw =>
        obtain ⟨c', h1, h2, e2⟩ := asNumeric_abs env hsa
        have hk : s.Keeps (s.mutate c') := mutate_keeps _ _ (keeps_of_abs hsa h1 h2)
        rw [e2, aNumLoop, hal]
        cases hx : aNumeric env l with
        | ok xs =>
          simp only
          exact ⟨.cons (hk.trans (replace_keeps _ _ (by rw [mutate_cur]; exact notRaw.resolved h1 (by simp [ACh.looked])))) ih1, trivial,
            .cons ⟨_, Abs.num xs 0x28 0 [] (.inl rfl), rfl⟩ ih3⟩
        | error e =>
          have := aNumeric_err env l e hx
          subst this
          simp only
          refine ⟨.cons hk (List.forall₂_same.mpr fun x _ => .refl x), trivial, .cons ?_ ?_⟩
          · rw [mutate_cur]; exact ⟨_, h1, rfl⟩
          · exact hrest.imp fun s a h => ⟨a, h, rfl⟩
      | _ => simp [ACh.cls] at hc
    · rw [if_neg hu]
      have : aNumLoop env (a :: as) = (a :: bs, fl) := by
        cases a with
        | str l raw => exact absurd hc hu
        | _ => rw [aNumLoop, hal]; simp
      rw [this]
      exact ⟨.cons (.refl _) ih1, rfl, .cons ⟨a, hsa, rfl⟩ ih3⟩

/-- `chunks[i]` is `a`, looked up or not. -/
def SA (s : Slot) (a : ACh) : Prop := ∃ a', Abs s.cur a' ∧ a'.looked = a.looked

theorem SA.cls {s : Slot} {a : ACh} (h : SA s a) : s.cur.cls = a.cls := by
  obtain ⟨a', h, e⟩ := h
  rw [h.cls_eq, ← ACh.looked_cls, e, ACh.looked_cls]

theorem intLoop_abs (prec : Nat) : ∀ (ss : List Slot) (as : List ACh), List.Forall₂ SA ss as →
      List.Forall₂ Slot.Keeps ss (intLoop prec ss).1 ∧
      (intLoop prec ss).2 = aInt prec as ∧
      List.Forall₂ SA (intLoop prec ss).1 as := by
  intro ss as h
  induction h with
  | nil => exact ⟨.nil, rfl, .nil⟩
  | @cons s a ss as hsa hrest ih =>
    obtain ⟨a', ha, hl⟩ := hsa
    have hcls : a'.cls = a.cls := by rw [← ACh.looked_cls, hl, ACh.looked_cls]
    rw [intLoop]
    rcases hsl : intLoop prec ss with ⟨ss', r⟩
    rw [hsl] at ih
    obtain ⟨ih1, ih2, ih3⟩ := ih
    simp only at ih1 ih2 ih3
    subst ih2
    by_cases hz : s.cur.typ = 0
    · rw [if_pos hz]
      have := ha.typ_zero.mp hz
      rw [hcls] at this
      cases a with
      | nul n => exact ⟨.cons (.refl _) ih1, rfl, .cons ⟨a', ha, hl⟩ ih3⟩
      | _ => simp [ACh.cls] at this
    · rw [if_neg hz]
      have hnz : a'.cls ≠ .null := fun h => hz (ha.typ_zero.mpr h)
      obtain ⟨c', e, h1, h2, h3⟩ := prepare_abs ha hnz
      have hk : s.Keeps (s.mutate c') := mutate_keeps _ _ (keeps_of_abs ha h1 h2)
      have hsa' : SA (s.mutate c') a := by
        refine ⟨a'.looked, by rw [mutate_cur]; exact h1, by rw [ACh.looked_looked, hl]⟩
      simp only [e]
      have hrefl : List.Forall₂ Slot.Keeps ss ss := List.forall₂_same.mpr fun x _ => .refl x
      rw [hl] at h1
      rw [hcls] at hnz
      cases a with
      | nul n => simp [ACh.cls] at hnz
      | num l =>
        have hd : c'.data = .f8 l := by
          simp only [ACh.looked] at h1
          generalize hx : ACh.num l = x at h1
          cases h1 with
          | num l t sz sr h => injection hx with hx; subst hx; rfl
          | rk l sz sr => simp [hasBit, REPR_PREPARED] at h3
          | _ => simp at hx
        simp only [hd, aInt]
        by_cases hi : f8IsI8 l prec
        · rw [if_pos hi, if_pos hi]
          exact ⟨.cons hk ih1, rfl, .cons hsa' ih3⟩
        · rw [if_neg hi, if_neg hi]
          exact ⟨.cons hk hrefl, rfl, .cons hsa' hrest⟩
      | str l raw =>
        have hd : c'.data = .strs l := by
          simp only [ACh.looked] at h1
          cases h1; rfl
        simp only [hd, aInt]
        exact ⟨.cons hk hrefl, trivial, .cons hsa' hrest⟩
      | tmp l =>
        have hd : c'.data = .i8 l := by
          simp only [ACh.looked] at h1
          generalize hx : ACh.tmp l = x at h1
          cases h1 with
          | ms l t sz sr h => injection hx with hx; subst hx; rfl
          | serial l sz sr => simp [hasBit, REPR_PREPARED] at h3
          | rkSerial l sz sr => simp [hasBit, REPR_PREPARED] at h3
          | _ => simp at hx
        simp only [hd, aInt]
        exact ⟨.cons hk hrefl, trivial, .cons hsa' hrest⟩

theorem arrowPass_abs (env : Env) (dt : DType) : ∀ (ss : List Slot) (as : List ACh), List.Forall₂ SA ss as →
      List.Forall₂ Slot.Keeps ss (passSlots (stepArrow env dt) ss).1 ∧
      match mapPy (fun a => castVals env dt a.cells) as with
      | .ok vs => ∃ arrs, (passSlots (stepArrow env dt) ss).2 = .ok arrs ∧ arrs.map Arr.vals = vs
      | .error e => (passSlots (stepArrow env dt) ss).2 = .error e := by
  intro ss as h
  induction h with
  | nil => exact ⟨.nil, [], rfl, rfl⟩
  | @cons s a ss as hsa hrest ih =>
    obtain ⟨a', ha, hl⟩ := hsa
    obtain ⟨c', e, h1, h2⟩ := arrow_abs env dt ha
    have hk : s.Keeps (s.mutate c') := mutate_keeps _ _ (keeps_of_abs ha h1 h2)
    have hcells : a'.cells = a.cells := by rw [← ACh.looked_cells, hl, ACh.looked_cells]
    rw [hcells] at e
    rcases hps : passSlots (stepArrow env dt) ss with ⟨ss', r⟩
    rw [hps] at ih
    rw [passSlots, mapPy, stepArrow, e]
    cases hv : castVals env dt a.cells with
    | error e =>
      simp only [Except.map]
      exact ⟨.cons hk (List.forall₂_same.mpr fun x _ => .refl x), trivial⟩
    | ok v =>
      simp only [Except.map, hps]
      cases hm : mapPy (fun a => castVals env dt a.cells) as with
      | error e =>
        rw [hm] at ih
        simp only at ih ⊢
        obtain ⟨ih1, ih2⟩ := ih
        subst ih2
        exact ⟨.cons hk ih1, rfl⟩
      | ok vs =>
        rw [hm] at ih
        simp only at ih ⊢
        obtain ⟨ih1, arrs, ih2, ih3⟩ := ih
        subst ih2
        exact ⟨.cons hk ih1, _, rfl, by simp [ih3]⟩

/-- A pass that succeeds leaves no reference. -/
theorem arrowPass_cur (env : Env) (dt : DType) : ∀ (ss : List Slot) (as : List ACh), List.Forall₂ SA ss as →
    ∀ r, (passSlots (stepArrow env dt) ss).2 = .ok r → ∀ s ∈ (passSlots (stepArrow env dt) ss).1, s.cur.Resolved := by
  intro ss as h
  induction h with
  | nil => intro r _ s hs; simp [passSlots] at hs
  | @cons s a ss as hsa hrest ih =>
    obtain ⟨a', ha, hl⟩ := hsa
    obtain ⟨c', e, h1, h2⟩ := arrow_abs env dt ha
    rcases hps : passSlots (stepArrow env dt) ss with ⟨ss', r⟩
    rw [hps] at ih
    rw [passSlots, stepArrow, e]
    cases hv : castVals env dt a'.cells with
    | error e => intro r h; simp [Except.map] at h
    | ok v =>
      simp only [Except.map, hps]
      cases r with
      | error e => intro r h; simp at h
      | ok as =>
        intro r _ t ht
        rcases List.mem_cons.mp ht with rfl | ht
        · rw [mutate_cur]
          exact notRaw.resolved h1 fun l => by cases a' <;> simp [ACh.looked]
        · exact ih as rfl t ht

theorem keeps_trans_list {a b c : List Slot} (h1 : List.Forall₂ Slot.Keeps a b)
    (h2 : List.Forall₂ Slot.Keeps b c) : List.Forall₂ Slot.Keeps a c := by
  induction h1 generalizing c with
  | nil => cases h2; exact .nil
  | cons h _ ih => cases h2 with | cons h' h'' => exact .cons (h.trans h') (ih h'')

theorem any_cls {ss : List Slot} {as : List ACh} (h : List.Forall₂ (fun s a => Abs s.cur a) ss as) (k : Cls) :
    (ss.any fun s => s.cur.cls == k) = as.any fun a => a.cls == k := by
  induction h with
  | nil => rfl
  | cons h _ ih => rw [List.any_cons, List.any_cons, ih, h.cls_eq]

theorem numPass_abs (env : Env) (ss : List Slot) (as : List ACh)
    (h : List.Forall₂ (fun s a => Abs s.cur a) ss as) :
    List.Forall₂ Slot.Keeps ss (passSlots (stepNumTemporal env) ss).1 ∧
    (∃ bs, (passSlots (stepNumTemporal env) ss).2 = .ok bs) ∧
    List.Forall₂ (fun s a => Abs s.cur a) (passSlots (stepNumTemporal env) ss).1 (as.map aNumTmp) := by
  induction h with
  | nil => exact ⟨.nil, ⟨[], rfl⟩, .nil⟩
  | @cons s a ss as hsa _ ih =>
    obtain ⟨hk, b, he, hab⟩ := step_num env s a hsa
    rw [passSlots]
    rcases hfs : stepNumTemporal env s with ⟨s', r⟩
    rw [hfs] at hk he hab
    simp only at hk he hab
    subst he
    rcases hps : passSlots (stepNumTemporal env) ss with ⟨ss', r'⟩
    rw [hps] at ih
    obtain ⟨ih1, ⟨bs, ih2⟩, ih3⟩ := ih
    simp only at ih1 ih2 ih3
    subst ih2
    exact ⟨.cons hk ih1, ⟨_, rfl⟩, .cons hab ih3⟩

theorem convertPhase_abs (env : Env) (o : ConcatOpts) (ss : List Slot) (as : List ACh)
    (h : List.Forall₂ (fun s a => Abs s.cur a) ss as) :
    List.Forall₂ Slot.Keeps ss (convertPhase env o ss).1 ∧
    match aConvert env o as with
    | .error e => (convertPhase env o ss).2 = .error e
    | .ok (bs, f) => (convertPhase env o ss).2 = .ok f ∧ List.Forall₂ SA (convertPhase env o ss).1 bs := by
  have hself : List.Forall₂ Slot.Keeps ss ss := List.forall₂_same.mpr fun x _ => .refl x
  have hSA : List.Forall₂ SA ss as := h.imp fun s a h => ⟨a, h, rfl⟩
  unfold convertPhase aConvert
  simp only [any_cls h]
  cases as.any fun a => a.cls == .temp with
  | true =>
    simp only [if_true]
    cases o.confDt with
    | true =>
      simp only [if_true]
      obtain ⟨k1, ⟨bs, e1⟩, a1⟩ := numPass_abs env ss as h
      rcases hps : passSlots (stepNumTemporal env) ss with ⟨ss1, r1⟩
      rw [hps] at k1 e1 a1
      simp only at k1 e1 a1
      subst e1
      simp only
      obtain ⟨k2, h2⟩ := passSlots_abs (stepStrTemporal env o) (aStrTmp env o) (fun b y => b = y)
        (fun s a h => by
          have := step_str env o s a h
          revert this
          cases aStrTmp env o a <;> exact id) ss1 _ a1
      rcases hps2 : passSlots (stepStrTemporal env o) ss1 with ⟨ss2, r2⟩
      rw [hps2] at k2 h2
      cases hm : mapPy (aStrTmp env o) (as.map aNumTmp) with
      | error e =>
        rw [hm] at h2
        simp only at h2 ⊢
        subst h2
        exact ⟨keeps_trans_list k1 k2, rfl⟩
      | ok ys =>
        rw [hm] at h2
        simp only at h2 ⊢
        obtain ⟨fs, e2, a2, r2⟩ := h2
        subst e2
        simp only
        refine ⟨keeps_trans_list k1 k2, ?_, a2.imp fun s a h => ⟨a, h, rfl⟩⟩
        congr 1
        clear a2 k2 hps2 hm
        induction r2 with
        | nil => rfl
        | cons h _ ih => rw [List.any_cons, List.any_cons, ih, h]; rfl
    | false => exact ⟨hself, rfl, hSA⟩
  | false =>
    simp only [Bool.false_eq_true, if_false]
    cases ((as.any fun a => a.cls == .nums) && (as.any fun a => a.cls == .utf8)) with
    | true =>
      simp only [if_true]
      cases o.confNum with
      | true =>
        simp only [if_true]
        obtain ⟨k, e, a⟩ := strNumericLoop_abs env ss as h
        exact ⟨k, e, a⟩
      | false => exact ⟨hself, rfl, hSA⟩
    | false => exact ⟨hself, rfl, hSA⟩

theorem typePhase_abs (o : ConcatOpts) (hasT hasN f : Bool) (ss : List Slot) (as : List ACh)
    (h : List.Forall₂ SA ss as) :
    List.Forall₂ Slot.Keeps ss (typePhase o hasT hasN f ss).1 ∧
    (typePhase o hasT hasN f ss).2 = aType o hasT hasN f as ∧
    List.Forall₂ SA (typePhase o hasT hasN f ss).1 as := by
  have hself : List.Forall₂ Slot.Keeps ss ss := List.forall₂_same.mpr fun x _ => .refl x
  unfold typePhase aType
  cases f with
  | true => exact ⟨hself, rfl, h⟩
  | false =>
    simp only [Bool.false_eq_true, if_false]
    cases hasT with
    | true => exact ⟨hself, rfl, h⟩
    | false =>
      simp only [Bool.false_eq_true, if_false]
      cases hasN with
      | false => exact ⟨hself, rfl, h⟩
      | true =>
        simp only [if_true]
        obtain ⟨k, e, a⟩ := intLoop_abs o.prec ss as h
        rcases hl : intLoop o.prec ss with ⟨ss', r⟩
        rw [hl] at k e a
        simp only at k e a
        rw [← e]
        cases r with
        | ok b => exact ⟨k, rfl, a⟩
        | error e => exact ⟨k, rfl, a⟩

/-- `concatenate` depends only on what the chunks are, and changes the objects only by looking up
strings and decoding numbers. -/
theorem concatSlots_abs (env : Env) (o : ConcatOpts) (ss : List Slot) (as : List ACh)
    (h : List.Forall₂ (fun s a => Abs s.cur a) ss as) :
    List.Forall₂ Slot.Keeps ss (concatSlots env o ss).1 ∧ (concatSlots env o ss).2 = aConcat env o as := by
  obtain ⟨k1, h1⟩ := convertPhase_abs env o ss as h
  unfold concatSlots aConcat
  simp only [any_cls h]
  rcases hc : convertPhase env o ss with ⟨ss1, r1⟩
  rw [hc] at k1 h1
  cases ha : aConvert env o as with
  | error e =>
    rw [ha] at h1
    simp only at h1
    subst h1
    exact ⟨k1, rfl⟩
  | ok p =>
    obtain ⟨bs, f⟩ := p
    rw [ha] at h1
    simp only at h1 k1
    obtain ⟨e1, a1⟩ := h1
    subst e1
    simp only
    obtain ⟨k2, e2, a2⟩ := typePhase_abs o (as.any fun a => a.cls == .temp) (as.any fun a => a.cls == .nums)
      f ss1 bs a1
    rcases hty : typePhase o (as.any fun a => a.cls == .temp) (as.any fun a => a.cls == .nums) f ss1 with ⟨ss2, r2⟩
    rw [hty] at k2 e2 a2
    simp only at k2 e2 a2
    rw [← e2]
    have k12 := keeps_trans_list k1 k2
    cases r2 with
    | error e => exact ⟨k12, rfl⟩
    | ok dt =>
      simp only
      obtain ⟨k3, h3⟩ := arrowPass_abs env dt ss2 bs a2
      rcases hps : passSlots (stepArrow env dt) ss2 with ⟨ss3, r3⟩
      rw [hps] at k3 h3
      have k123 := keeps_trans_list k12 k3
      cases hm : mapPy (fun a => castVals env dt a.cells) bs with
      | error e =>
        rw [hm] at h3
        simp only at h3
        subst h3
        exact ⟨k123, rfl⟩
      | ok vs =>
        rw [hm] at h3
        simp only at h3
        obtain ⟨arrs, e3, h3⟩ := h3
        subst e3
        simp only
        have : arrs.isEmpty = vs.isEmpty := by rw [← h3]; cases arrs <;> rfl
        rw [this]
        cases vs.isEmpty with
        | true => exact ⟨k123, rfl⟩
        | false =>
          simp only [Bool.false_eq_true, if_false]
          refine ⟨k123, ?_⟩
          rw [← h3, List.flatMap_def]

/-- After a success no object of the caller is a run of references. -/
theorem concatSlots_resolved (env : Env) (o : ConcatOpts) (ss : List Slot) (as : List ACh)
    (h : List.Forall₂ (fun s a => Abs s.cur a) ss as) (hf : ∀ s ∈ ss, s.rep = none) {v : Arr}
    (hv : (concatSlots env o ss).2 = .ok v) : ∀ s ∈ (concatSlots env o ss).1, s.obj.Resolved := by
  have hfix : ∀ s ∈ (concatSlots env o ss).1, s.Fixed := by
    have hk := (concatSlots_abs env o ss as h).1
    generalize (concatSlots env o ss).1 = out at hk
    clear h hv
    induction hk with
    | nil => simp
    | @cons s t ss out hs _ ih =>
      intro x hx
      rcases List.mem_cons.mp hx with rfl | hx
      · exact hs.fixed fun hr => absurd (hf s (by simp)) hr
      · exact ih (fun y hy => hf y (by simp [hy])) x hx
  have hcur : ∀ s ∈ (concatSlots env o ss).1, s.cur.Resolved := by
    obtain ⟨_, h1⟩ := convertPhase_abs env o ss as h
    revert hv
    unfold concatSlots
    simp only
    rcases hc : convertPhase env o ss with ⟨ss1, r1⟩
    rw [hc] at h1
    cases r1 with
    | error e => intro hv; simp at hv
    | ok f =>
      cases ha : aConvert env o as with
      | error e => rw [ha] at h1; simp at h1
      | ok p =>
        obtain ⟨bs, f'⟩ := p
        rw [ha] at h1
        obtain ⟨_, a1⟩ := h1
        simp only at a1 ⊢
        obtain ⟨_, _, a2⟩ := typePhase_abs o (ss.any fun s => s.cur.cls == .temp) (ss.any fun s => s.cur.cls == .nums)
          f ss1 bs a1
        rcases hty : typePhase o (ss.any fun s => s.cur.cls == .temp) (ss.any fun s => s.cur.cls == .nums) f ss1
          with ⟨ss2, r2⟩
        rw [hty] at a2
        simp only at a2
        cases r2 with
        | error e => intro hv; simp at hv
        | ok dt =>
          simp only
          have h3 := arrowPass_cur env dt ss2 bs a2
          rcases hps : passSlots (stepArrow env dt) ss2 with ⟨ss3, r3⟩
          rw [hps] at h3
          cases r3 with
          | error e => intro hv; simp at hv
          | ok arrs =>
            simp only at h3 ⊢
            have h3 := h3 arrs rfl
            split
            · intro hv; simp at hv
            · intro _; exact h3
  intro s hs
  have h1 := hfix s hs
  have h2 := hcur s hs
  rcases s with ⟨o, _ | r⟩
  · exact h2
  · exact h1 (by simp)

end Rxls
