import Verif.Spec.Memory
import Verif.Lemmas.ConcatTop
import Verif.Lemmas.Options
import Verif.Lemmas.Series

/-! # No memory outside the buffers: chunks and columns -/

namespace Rxls

theorem inBounds_map {α β : Type} {f : α → β} {x : Py α} (h : InBounds x) : InBounds (x.map f) := by
  cases x <;> simp_all [Except.map]

theorem inBounds_mapM {α β : Type} {f : α → Py β} : ∀ {l : List α}, (∀ a ∈ l, InBounds (f a)) → InBounds (l.mapM f)
  | [], _ => by simp [pure, Except.pure]
  | a :: l, h => by
    have h1 := h a (by simp)
    have h2 := inBounds_mapM (f := f) (l := l) fun a ha => h a (by simp [ha])
    rw [List.mapM_cons]
    simp only [bind, Except.bind, pure, Except.pure]
    cases e1 : f a with
    | error x => simp_all
    | ok b =>
      cases e2 : l.mapM f with
      | error x => simp_all
      | ok bs => simp

/-- The references a chunk keeps can be followed. -/
def SafeChunk (c : Chunk) : Prop :=
  ∀ l, c.data = .idx l → c.typ = TYPE_STRING ||| REPR_SHARED ∧ ∀ i ∈ l, i < c.sref.length

theorem takeShared_inBounds {sref : List (Option Str)} {l : List Nat} (h : ∀ i ∈ l, i < sref.length) :
    InBounds (takeShared sref l) := by
  apply inBounds_mapM
  intro i hi
  rw [List.getElem?_eq_getElem (h i hi)]
  simp

theorem selectList_inBounds {α : Type} {e : PyErr} (he : e ≠ .undefinedBehaviour) (l : List α) (ix : TakeIdx) :
    InBounds (selectList e l ix) := by
  cases ix <;> simp only [selectList] <;> try simp
  split <;> simp [he]

theorem take_inBounds (c : Chunk) (ix : TakeIdx) : InBounds (c.take ix) := by
  have h1 := fun (α : Type) (l : List α) => selectList_inBounds (α := α) (e := .arrowInvalid) (by simp) l ix
  have h2 := fun (α : Type) (l : List α) => selectList_inBounds (α := α) (e := .indexError) (by simp) l ix
  unfold Chunk.take
  simp only [bind, Except.bind]
  repeat' split
  all_goals first
    | simp; done
    | (rename_i e; intro h; injection h with h; subst h; first | exact h1 _ _ e | exact h2 _ _ e)

theorem safe_pred : TakePred SafeChunk where
  take c ix c' h e := by
    have ht := take_data e
    intro l hl
    have htyp : c'.typ = c.typ ∨ c'.data ≠ .idx l := by
      unfold Chunk.take at e
      simp only [bind, Except.bind] at e
      repeat' split at e
      all_goals first
        | simp at e; done
        | (injection e with e; subst e; simp [Chunk.nulls])
    rcases ht with ⟨l1, l2, _, h2, _⟩ | ⟨l1, l2, h1, h2, h3, h4⟩ | ⟨_, h2⟩
    · rw [h2] at hl; simp at hl
    · rw [h2] at hl; injection hl with hl; subst hl
      obtain ⟨g1, g2⟩ := h l1 h1
      refine ⟨by rcases htyp with h | h; exact h.trans g1; exact absurd h2 h, fun i hi => ?_⟩
      rw [h3]; exact g2 i (h4 i hi)
    · exact absurd hl (h2 l)
  nulls n := by intro l h; simp [Chunk.nulls] at h

theorem cutTop_inBounds (c : Chunk) (i : Nat) (o : Int) : InBounds (cutTop c i o) := by
  unfold cutTop
  split
  · have := take_inBounds c (.slice ⟨some o, none, none⟩)
    split <;> simp_all
  · simp

theorem cutBottom_inBounds (t : Taken) (l cum : Int) : InBounds (cutBottom t l cum) := by
  unfold cutBottom
  split
  · have := take_inBounds t.1 (.slice ⟨none, some (t.1.size + l - cum), none⟩)
    split <;> simp_all
  · simp

theorem takeLoop_inBounds (len : Int) : ∀ (cs : List Chunk) (i : Nat) (o cum : Int), InBounds (takeLoop len cs i o cum)
  | [], i, o, cum => by simp [takeLoop]
  | c :: cs, i, o, cum => by
    have ih := takeLoop_inBounds len cs
    rw [takeLoop]
    split
    · exact ih _ _ _
    · have h1 := cutTop_inBounds c i o
      cases e1 : cutTop c i o with
      | error x => simp_all
      | ok t1 =>
        simp only
        have h2 := cutBottom_inBounds t1 len (cum + t1.1.size)
        cases e2 : cutBottom t1 len (cum + t1.1.size) with
        | error x => simp_all
        | ok t2 =>
          simp only
          split
          · simp
          · have h3 := ih (i + 1) (if 0 < o then 0 else o) (cum + t1.1.size)
            cases e3 : takeLoop len cs (i + 1) (if 0 < o then 0 else o) (cum + t1.1.size) with
            | error x => rw [e3] at h3; simpa using h3
            | ok q => simp

theorem takeLoopIdx_inBounds (m : List Bool) : ∀ (cs : List Chunk) (i : Nat) (o cum : Int),
    InBounds (takeLoopIdx m cs i o cum)
  | [], i, o, cum => by simp [takeLoopIdx]
  | c :: cs, i, o, cum => by
    have ih := takeLoopIdx_inBounds m cs
    rw [takeLoopIdx]
    split
    · exact ih _ _ _
    · have h1 := cutTop_inBounds c 0 o
      cases e1 : cutTop c 0 o with
      | error x => simp_all
      | ok t1 =>
        obtain ⟨c1, al⟩ := t1
        simp only
        split
        · exact ih _ _ _
        · have h2 := take_inBounds c1 (.slice ⟨none, some ((m.drop i).take c1.size).length, none⟩)
          cases e2 : c1.take (.slice ⟨none, some ((m.drop i).take c1.size).length, none⟩) with
          | error x => rw [e2] at h2; simpa using h2
          | ok c2 =>
            simp only
            have h4 := take_inBounds c2 (.mask ((m.drop i).take c1.size))
            cases e4 : c2.take (.mask ((m.drop i).take c1.size)) with
            | error x => rw [e4] at h4; simpa using h4
            | ok it =>
              simp only
              have h3 := ih (i + c1.size) (if 0 < o then 0 else o) (if it.size ≠ 0 then cum + it.size else cum)
              cases e3 : takeLoopIdx m cs (i + c1.size) (if 0 < o then 0 else o)
                  (if it.size ≠ 0 then cum + it.size else cum) with
              | error x => rw [e3] at h3; simpa using h3
              | ok q => simp

theorem takeOver_inBounds (cs : List Chunk) (o l : Int) (m : Option (List Bool)) : InBounds (takeOver cs o l m) := by
  unfold takeOver
  cases m with
  | some m =>
    simp only
    split
    · simp
    · have h := takeLoopIdx_inBounds m cs 0 o 0
      cases e : takeLoopIdx m cs 0 o 0 with
      | error x => simp_all
      | ok q => simp
  | none =>
    have h := takeLoop_inBounds l cs 0 o 0
    simp only
    cases e : takeLoop l cs 0 o 0 with
    | error x => simp_all
    | ok q => simp

/-! ## Conversions of one chunk -/

theorem prepare_inBounds {c : Chunk} (h : SafeChunk c) : InBounds c.prepare := by
  unfold Chunk.prepare
  split
  · simp
  · split
    · cases hd : c.data with
      | idx l =>
        simp only [bind, Except.bind]
        have := takeShared_inBounds (h l hd).2
        cases e : takeShared c.sref l <;> simp_all
      | _ => simp
    · simp only [bind, Except.bind]
      repeat' split
      all_goals simp

/-- A prepared chunk that was safe has no references left, or is what it was. -/
theorem prepare_safe {c c' : Chunk} (h : SafeChunk c) (e : c.prepare = .ok c') : SafeChunk c' := by
  unfold Chunk.prepare at e
  split at e
  · injection e with e; subst e; exact h
  · rename_i hp
    split at e
    · cases hd : c.data with
      | idx l =>
        rw [hd] at e
        simp only [bind, Except.bind] at e
        split at e
        · simp at e
        · injection e with e; subst e; intro l hl; simp at hl
      | _ => rw [hd] at e; simp at e
    · rename_i hs
      have hn : ∀ l, c.data ≠ .idx l := fun l hl => by
        have := (h l hl).1
        rw [this] at hs; exact hs (by decide)
      simp only [bind, Except.bind] at e
      intro l hl
      repeat' split at e
      all_goals first
        | simp at e; done
        | (injection e with e; subst e
           simp_all)

theorem castVal_inBounds (env : Env) (dst : DType) (v : Val) : InBounds (castVal env dst v) := by
  cases v <;> cases dst <;> simp only [castVal] <;> try simp
  all_goals split <;> simp

theorem castArr_inBounds (env : Env) (dst : DType) (a : Arr) : InBounds (castArr env dst a) := by
  unfold castArr
  split
  · simp
  · apply inBounds_map
    apply inBounds_mapM
    intro v _
    cases v with
    | none => simp
    | some v => exact inBounds_map (castVal_inBounds env dst v)

theorem wrap_inBounds (c : Chunk) : InBounds c.wrap := by
  unfold Chunk.wrap
  repeat' split
  all_goals simp

theorem arrow_inBounds {env : Env} {dst : DType} {c : Chunk} (h : SafeChunk c) :
    SafeChunk (c.arrow env dst).1 ∧ InBounds (c.arrow env dst).2 := by
  unfold Chunk.arrow
  split
  · cases hd : c.data <;> simp [h]
  · have h1 := prepare_inBounds h
    cases e : c.prepare with
    | error x => exact ⟨h, by simp_all⟩
    | ok c' =>
      refine ⟨prepare_safe h e, ?_⟩
      simp only [bind, Except.bind]
      have := wrap_inBounds c'
      cases e2 : c'.wrap with
      | error x => simp_all
      | ok a => exact castArr_inBounds env dst a

theorem asNumeric_inBounds {env : Env} {c : Chunk} (h : SafeChunk c) :
    SafeChunk (c.asNumeric env).1 ∧ InBounds (c.asNumeric env).2 ∧
      ∀ r, (c.asNumeric env).2 = .ok (some r) → SafeChunk r := by
  unfold Chunk.asNumeric
  split
  · simp [h]
  · have := arrow_inBounds (env := env) (dst := .f8) h
    cases e : c.arrow env .f8 with
    | mk c' r =>
      rw [e] at this
      cases r with
      | ok a =>
        refine ⟨this.1, by simp, fun r hr => ?_⟩
        simp only [Except.ok.injEq, Option.some.injEq] at hr
        subst hr; intro l hl; simp at hl
      | error x => exact ⟨this.1, by simpa using this.2, by simp⟩

theorem mfStrptime_inBounds (sp : Str → Option Str → Option Int) (d : List Str) (l : List (Option Str)) (f : List Str)
    (b : Bool) : InBounds (mfStrptime sp d l f b) := by
  unfold mfStrptime
  simp only
  repeat' split
  all_goals simp

theorem asTemporal_inBounds {env : Env} {f : List Str} {c : Chunk} (h : SafeChunk c) :
    InBounds (c.asTemporal env f) ∧ ∀ r, c.asTemporal env f = .ok (some r) → SafeChunk r := by
  unfold Chunk.asTemporal
  split
  · rename_i hn
    have hi : ∀ l, c.data ≠ .idx l := fun l hl => by
      rw [(h l hl).1] at hn; exact absurd hn (by decide)
    split
    · simp
    · split
      all_goals
        refine ⟨by simp, fun r hr => ?_⟩
        simp only [Except.ok.injEq, Option.some.injEq] at hr
        subst hr; intro l hl; exact absurd hl (hi l)
  · cases hd : c.data with
    | strs l =>
      have := mfStrptime_inBounds env.strptime env.formats l f true
      simp only [bind, Except.bind]
      cases e : mfStrptime env.strptime env.formats l f true with
      | error x => simp_all
      | ok r0 =>
        refine ⟨by simp, fun r hr => ?_⟩
        simp only [Except.ok.injEq, Option.some.injEq] at hr
        subst hr; intro l hl; simp at hl
    | _ => simp

/-! ## The list `concatenate` works on -/

/-- Both objects of an entry are safe. -/
def SafeSlot (s : Slot) : Prop := SafeChunk s.obj ∧ ∀ r, s.rep = some r → SafeChunk r

theorem SafeSlot.cur {s : Slot} (h : SafeSlot s) : SafeChunk s.cur := by
  unfold Slot.cur
  cases e : s.rep with
  | none => exact h.1
  | some r => exact h.2 r e

theorem SafeSlot.mutate {s : Slot} {c : Chunk} (h : SafeSlot s) (hc : SafeChunk c) : SafeSlot (s.mutate c) := by
  unfold Slot.mutate
  cases e : s.rep with
  | none => exact ⟨hc, by simp [e]⟩
  | some r => exact ⟨h.1, by simp; exact hc⟩

theorem SafeSlot.replace {s : Slot} {c : Option Chunk} (h : SafeSlot s) (hc : ∀ r, c = some r → SafeChunk r) :
    SafeSlot (s.replace c) := by
  unfold Slot.replace
  cases c with
  | none => exact h
  | some c => exact ⟨h.1, by simpa using hc c rfl⟩

theorem passSlots_safe {α : Type} {f : Slot → Slot × Py α} (hf : ∀ s, SafeSlot s → SafeSlot (f s).1 ∧ InBounds (f s).2) :
    ∀ ss : List Slot, (∀ s ∈ ss, SafeSlot s) → (∀ s ∈ (passSlots f ss).1, SafeSlot s) ∧ InBounds (passSlots f ss).2
  | [], _ => by simp [passSlots]
  | s :: ss, h => by
    have h1 := hf s (h s (by simp))
    have ih := passSlots_safe hf ss fun s hs => h s (by simp [hs])
    rw [passSlots]
    cases e : f s with
    | mk s' r =>
      rw [e] at h1
      cases r with
      | error x => exact ⟨by simpa using ⟨h1.1, fun s hs => h s (by simp [hs])⟩, by simpa using h1.2⟩
      | ok a =>
        simp only
        cases e2 : passSlots f ss with
        | mk ss' r2 =>
          rw [e2] at ih
          cases r2 with
          | error x => exact ⟨by simpa using ⟨h1.1, ih.1⟩, by simpa using ih.2⟩
          | ok as => exact ⟨by simpa using ⟨h1.1, ih.1⟩, by simp⟩

theorem stepNumTemporal_safe (env : Env) (s : Slot) (h : SafeSlot s) :
    SafeSlot (stepNumTemporal env s).1 ∧ InBounds (stepNumTemporal env s).2 := by
  unfold stepNumTemporal
  split
  · have := asTemporal_inBounds (env := env) (f := []) h.cur
    cases e : s.cur.asTemporal env [] with
    | error x => exact ⟨h, by simp_all⟩
    | ok r => exact ⟨h.replace fun c hc => this.2 c (by rw [e, hc]), by simp⟩
  · exact ⟨h, by simp⟩

theorem stepStrTemporal_safe (env : Env) (o : ConcatOpts) (s : Slot) (h : SafeSlot s) :
    SafeSlot (stepStrTemporal env o s).1 ∧ InBounds (stepStrTemporal env o s).2 := by
  unfold stepStrTemporal
  split
  · have h1 := asTemporal_inBounds (env := env) (f := o.formats) h.cur
    split
    · rename_i r e
      exact ⟨h.replace fun c hc => h1.2 c (by rw [e, hc]), by simp⟩
    · split
      · have h2 := asNumeric_inBounds (env := env) h.cur
        split
        · rename_i c' r e
          rw [e] at h2
          simp only
          have h3 : SafeSlot (s.mutate c') := h.mutate h2.1
          have h4 : SafeChunk (r.getD (s.mutate c').cur) := by
            cases r with
            | none => exact h3.cur
            | some r => exact h2.2.2 r rfl
          have h5 := asTemporal_inBounds (env := env) (f := []) h4
          split
          · rename_i r2 e2
            refine ⟨h3.replace fun c hc => ?_, by simp⟩
            injection hc with hc; subst hc
            cases r2 with
            | none => exact h4
            | some r2 => exact h5.2 r2 e2
          · exact ⟨h3, by simp⟩
          · rename_i e2; rw [e2] at h5; exact ⟨h3, by simpa using h5.1⟩
        · rename_i e; rw [e] at h2; exact ⟨h.mutate h2.1, by simp⟩
        · rename_i e; rw [e] at h2; exact ⟨h.mutate h2.1, by simpa using h2.2.1⟩
      · exact ⟨h, by simp⟩
    · rename_i e; rw [e] at h1; exact ⟨h, by simpa using h1.1⟩
  · exact ⟨h, by simp⟩

theorem strNumericLoop_safe (env : Env) : ∀ ss : List Slot, (∀ s ∈ ss, SafeSlot s) →
    (∀ s ∈ (strNumericLoop env ss).1, SafeSlot s) ∧ InBounds (strNumericLoop env ss).2
  | [], _ => by simp [strNumericLoop]
  | s :: ss, h => by
    have h1 := h s (by simp)
    have hr : ∀ s ∈ ss, SafeSlot s := fun s hs => h s (by simp [hs])
    have ih := strNumericLoop_safe env ss hr
    rw [strNumericLoop]
    split
    · have h2 := asNumeric_inBounds (env := env) h1.cur
      split
      · rename_i c' r e
        rw [e] at h2
        have h3 : SafeSlot ((s.mutate c').replace r) := (h1.mutate h2.1).replace fun c hc => h2.2.2 c (by rw [hc])
        exact ⟨by simpa using ⟨h3, ih.1⟩, ih.2⟩
      · rename_i e; rw [e] at h2
        exact ⟨by simpa using ⟨h1.mutate h2.1, hr⟩, by simp⟩
      · rename_i e; rw [e] at h2
        exact ⟨by simpa using ⟨h1.mutate h2.1, hr⟩, by simpa using h2.2.1⟩
    · exact ⟨by simpa using ⟨h1, ih.1⟩, ih.2⟩

theorem intLoop_safe (prec : Nat) : ∀ ss : List Slot, (∀ s ∈ ss, SafeSlot s) →
    (∀ s ∈ (intLoop prec ss).1, SafeSlot s) ∧ InBounds (intLoop prec ss).2
  | [], _ => by simp [intLoop]
  | s :: ss, h => by
    have h1 := h s (by simp)
    have hr : ∀ s ∈ ss, SafeSlot s := fun s hs => h s (by simp [hs])
    have ih := intLoop_safe prec ss hr
    rw [intLoop]
    split
    · exact ⟨by simpa using ⟨h1, ih.1⟩, ih.2⟩
    · have h2 := prepare_inBounds h1.cur
      split
      · rename_i e; rw [e] at h2; exact ⟨by simpa using ⟨h1, hr⟩, by simpa using h2⟩
      · rename_i c' e
        have h3 : SafeSlot (s.mutate c') := h1.mutate (prepare_safe h1.cur e)
        simp only
        split
        · split
          · exact ⟨by simpa using ⟨h3, ih.1⟩, ih.2⟩
          · exact ⟨by simpa using ⟨h3, hr⟩, by simp⟩
        · exact ⟨by simpa using ⟨h3, hr⟩, by simp⟩

theorem stepArrow_safe (env : Env) (dt : DType) (s : Slot) (h : SafeSlot s) :
    SafeSlot (stepArrow env dt s).1 ∧ InBounds (stepArrow env dt s).2 := by
  have := arrow_inBounds (env := env) (dst := dt) h.cur
  exact ⟨h.mutate this.1, this.2⟩

theorem convertPhase_safe (env : Env) (o : ConcatOpts) (ss : List Slot) (h : ∀ s ∈ ss, SafeSlot s) :
    (∀ s ∈ (convertPhase env o ss).1, SafeSlot s) ∧ InBounds (convertPhase env o ss).2 := by
  unfold convertPhase
  simp only
  split
  · split
    · have h1 := passSlots_safe (stepNumTemporal_safe env) ss h
      cases e : passSlots (stepNumTemporal env) ss with
      | mk ss1 r =>
        rw [e] at h1
        cases r with
        | error x => simpa using h1
        | ok l =>
          have h2 := passSlots_safe (stepStrTemporal_safe env o) ss1 h1.1
          simp only
          cases e2 : passSlots (stepStrTemporal env o) ss1 with
          | mk ss2 r2 =>
            rw [e2] at h2
            cases r2 with
            | error x => simpa using h2
            | ok l => exact ⟨h2.1, by simp⟩
    · exact ⟨h, by simp⟩
  · split
    · split
      · exact strNumericLoop_safe env ss h
      · exact ⟨h, by simp⟩
    · exact ⟨h, by simp⟩

theorem typePhase_safe (o : ConcatOpts) (a b c : Bool) (ss : List Slot) (h : ∀ s ∈ ss, SafeSlot s) :
    (∀ s ∈ (typePhase o a b c ss).1, SafeSlot s) ∧ InBounds (typePhase o a b c ss).2 := by
  unfold typePhase
  split
  · exact ⟨h, by simp⟩
  · split
    · exact ⟨h, by simp⟩
    · split
      · have h1 := intLoop_safe o.prec ss h
        split
        · rename_i e; rw [e] at h1; exact ⟨h1.1, by simp⟩
        · rename_i e; rw [e] at h1; exact ⟨h1.1, by simpa using h1.2⟩
      · exact ⟨h, by simp⟩

theorem concatSlots_safe (env : Env) (o : ConcatOpts) (ss : List Slot) (h : ∀ s ∈ ss, SafeSlot s) :
    (∀ s ∈ (concatSlots env o ss).1, SafeSlot s) ∧ InBounds (concatSlots env o ss).2 := by
  unfold concatSlots
  simp only
  have h1 := convertPhase_safe env o ss h
  split
  · rename_i e; rw [e] at h1; exact ⟨h1.1, by simpa using h1.2⟩
  · rename_i ss1 fb e
    rw [e] at h1
    have h2 := typePhase_safe o (ss.any fun s => s.cur.cls == .temp) (ss.any fun s => s.cur.cls == .nums) fb ss1 h1.1
    split
    · rename_i e; rw [e] at h2; exact ⟨h2.1, by simpa using h2.2⟩
    · rename_i ss2 dt e
      rw [e] at h2
      have h3 := passSlots_safe (stepArrow_safe env dt) ss2 h2.1
      split
      · rename_i e; rw [e] at h3; exact ⟨h3.1, by simpa using h3.2⟩
      · rename_i ss3 arrs e
        rw [e] at h3
        split
        · exact ⟨h3.1, by simp⟩
        · exact ⟨h3.1, by simp⟩

theorem writeBack_safe : ∀ (taken : List Taken) (ss : List Slot) (orig : List Chunk), (∀ c ∈ orig, SafeChunk c) →
    (∀ s ∈ ss, SafeSlot s) → ∀ c ∈ writeBack orig taken ss, SafeChunk c
  | [], ss, orig, h, _ => by simpa [writeBack] using h
  | t :: ts, [], orig, h, _ => by simpa [writeBack] using h
  | t :: ts, s :: ss, orig, h, hs => by
    have ih := writeBack_safe ts ss
    unfold writeBack at ih ⊢
    rw [List.zip_cons_cons, List.foldl_cons]
    apply ih
    · intro c hc
      simp only at hc
      split at hc
      · rcases List.mem_or_eq_of_mem_set hc with hc | hc
        · exact h c hc
        · subst hc; exact (hs s (by simp)).1
      · exact h c hc
    · exact fun s hs' => hs s (by simp [hs'])

theorem concatenate_safe (env : Env) (o : ConcatOpts) (cs : List Chunk) (off len : Int) (m : Option (List Bool))
    (h : ∀ c ∈ cs, SafeChunk c) :
    (∀ c ∈ (concatenate env o cs off len m).1, SafeChunk c) ∧ InBounds (concatenate env o cs off len m).2 := by
  unfold concatenate
  split
  · have h1 := takeOver_inBounds cs off len m
    split
    · rename_i e; rw [e] at h1; exact ⟨h, by simpa using h1⟩
    · rename_i t e
      have h2 := takeOver_pred safe_pred h e
      have h3 := concatSlots_safe env o (t.map fun t => ⟨t.1, none⟩) (by
        intro s hs
        obtain ⟨x, hx, rfl⟩ := List.mem_map.mp hs
        exact ⟨h2 x.1 (by simpa [takenChunks] using ⟨x.2, hx⟩), by simp⟩)
      exact ⟨writeBack_safe _ _ _ h h3.1, h3.2⟩
  · have h3 := concatSlots_safe env o (cs.map fun c => ⟨c, none⟩) (by
      intro s hs
      obtain ⟨x, hx, rfl⟩ := List.mem_map.mp hs
      exact ⟨h x hx, by simp⟩)
    refine ⟨fun c hc => ?_, h3.2⟩
    obtain ⟨s, hs, rfl⟩ := List.mem_map.mp hc
    exact (h3.1 s hs).cur

/-! ## Columns -/

/-- The raw value can be followed if it is a reference. -/
def RefFits (env : Env) (binary : Bool) (n : Nat) (xdt : Nat) (v : Raw) : Prop :=
  hasBit xdt TYPE_STRING = true → hasBit xdt REPR_SHARED = true →
    if binary then ∃ b : Bytes, v = .bytes b ∧ b.length = 4 ∧ leNat b < n
    else ∀ s i, v = .text s → env.pyInt s = some i → i < n

theorem joinRaw_inBounds : ∀ l : List Raw, InBounds (joinRaw l)
  | [] => by simp [joinRaw]
  | .bytes b :: l => by
    have := joinRaw_inBounds l
    rw [joinRaw]
    split <;> simp_all
  | .text _ :: _ => by simp [joinRaw]

theorem dataToArray_inBounds (w : Nat) (l : List Raw) : InBounds (dataToArray w l) := by
  have := joinRaw_inBounds l
  unfold dataToArray
  split
  · simp_all
  · split <;> simp

theorem textArray_inBounds : ∀ l : List Raw, InBounds (textArray l)
  | [] => by simp [textArray]
  | .text b :: l => by
    have := textArray_inBounds l
    rw [textArray]
    split <;> simp_all
  | .bytes _ :: _ => by simp [textArray]

theorem fromiterF8_inBounds (env : Env) : ∀ l : List Raw, InBounds (fromiterF8 env l)
  | [] => by simp [fromiterF8]
  | .text b :: l => by
    have := fromiterF8_inBounds env l
    rw [fromiterF8]
    split
    · simp
    · split <;> simp_all
  | .bytes _ :: _ => by simp [fromiterF8]

theorem fromiterU32_safe (env : Env) (n : Nat) : ∀ l : List Raw,
    (∀ v ∈ l, ∀ s i, v = .text s → env.pyInt s = some i → i < n) →
    InBounds (fromiterU32 env l) ∧ ∀ r, fromiterU32 env l = .ok r → ∀ i ∈ r, i < n
  | [], _ => by simp [fromiterU32]
  | .text b :: l, h => by
    have ih := fromiterU32_safe env n l fun v hv => h v (by simp [hv])
    rw [fromiterU32]
    cases e : env.pyInt b with
    | none => simp
    | some k =>
      have hk := h _ (by simp) b k rfl e
      simp only
      split
      · simp
      · cases e2 : fromiterU32 env l with
        | error x => rw [e2] at ih; exact ⟨by simpa using ih.1, by simp⟩
        | ok r => rw [e2] at ih; simpa using ⟨hk, ih.2 r rfl⟩
  | .bytes _ :: _, _ => by simp [fromiterU32]

theorem dataToArrow_safe (n : Nat) (l : List Raw)
    (h : ∀ v ∈ l, ∃ b : Bytes, v = .bytes b ∧ b.length = 4 ∧ leNat b < n) :
    ∃ r, dataToArrow 4 l = .ok r ∧ ∀ i ∈ r, i < n := by
  obtain ⟨bs, rfl, hl, hn⟩ : ∃ bs : List Bytes, l = bs.map .bytes ∧ (∀ b ∈ bs, b.length = 4) ∧ ∀ b ∈ bs, leNat b < n := by
    induction l with
    | nil => exact ⟨[], by simp⟩
    | cons v l ih =>
      obtain ⟨b, rfl, h1, h2⟩ := h v (by simp)
      obtain ⟨bs, rfl, h3, h4⟩ := ih fun v hv => h v (by simp [hv])
      exact ⟨b :: bs, by simp, by simpa using ⟨h1, h3⟩, by simpa using ⟨h2, h4⟩⟩
  refine ⟨bs.map leNat, ?_, by simpa using hn⟩
  unfold dataToArrow
  rw [joinRaw_bytes]
  simp only [List.length_map]
  rw [if_neg (by rw [flatten_length 4 bs hl]; omega), piecesOf_flatten 4 bs hl]

theorem makeChunk_safe (env : Env) (binary : Bool) (shared : List (Option Str)) (xdt : Nat) (vals : List Raw)
    (h : ∀ v ∈ vals, RefFits env binary shared.length xdt v) :
    InBounds (makeChunk env binary shared xdt vals) ∧
      ∀ c, makeChunk env binary shared xdt vals = .ok c → SafeChunk c := by
  have hstr : ∀ sh, InBounds (Chunk.xlsxStrings env vals false sh) ∧
      ∀ c, Chunk.xlsxStrings env vals false sh = .ok c → SafeChunk c := by
    intro sh
    have := textArray_inBounds vals
    unfold Chunk.xlsxStrings
    simp only [Bool.false_eq_true, if_false]
    cases e : textArray vals with
    | error x => simp_all
    | ok l =>
      refine ⟨by simp, fun c hc => ?_⟩
      injection hc with hc; subst hc; intro l hl; simp at hl
  unfold makeChunk
  split
  · rename_i hs
    split
    · rename_i hb
      unfold Chunk.xlsbStrings
      split
      · rename_i hsh
        obtain ⟨r, hr, hn⟩ := dataToArrow_safe shared.length vals fun v hv => by
          have := h v hv hs hsh
          rw [if_pos hb] at this; exact this
        rw [hr]
        refine ⟨by simp, fun c hc => ?_⟩
        injection hc with hc; subst hc
        intro l hl
        simp only [Data.idx.injEq] at hl
        subst hl
        exact ⟨rfl, hn⟩
      · have := textArray_inBounds vals
        cases e : textArray vals with
        | error x => simp_all
        | ok l =>
          refine ⟨by simp, fun c hc => ?_⟩
          injection hc with hc; subst hc; intro l hl; simp at hl
    · rename_i hb
      cases hsh : hasBit xdt REPR_SHARED with
      | false => exact hstr shared
      | true =>
        have := fromiterU32_safe env shared.length vals fun v hv => by
          have := h v hv hs hsh
          rw [if_neg hb] at this; exact this
        unfold Chunk.xlsxStrings
        rw [if_pos rfl]
        cases e : fromiterU32 env vals with
        | error x => rw [e] at this; exact ⟨by simpa using this.1, by simp⟩
        | ok r =>
          refine ⟨by simp, fun c hc => ?_⟩
          injection hc with hc; subst hc
          intro l hl
          simp only [Data.idx.injEq] at hl
          subst hl
          exact ⟨rfl, this.2 r e⟩
  · split
    · unfold Chunk.xlsbNumeric
      simp only
      have h4 := dataToArray_inBounds 4 vals
      have h1 := dataToArray_inBounds 1 vals
      have h8 := dataToArray_inBounds 8 vals
      repeat' split
      all_goals first
        | (refine ⟨by simp, fun c hc => ?_⟩
           injection hc with hc; subst hc; intro l hl; simp at hl)
        | (rename_i e; simp_all)
    · unfold Chunk.xlsxNumeric
      have h4 := fromiterF8_inBounds env vals
      split
      · refine ⟨by simp, fun c hc => ?_⟩
        injection hc with hc; subst hc; intro l hl; simp at hl
      · exact hstr []
      · rename_i e; rw [e] at h4; exact ⟨by simpa using h4, by simp⟩

/-- The references of a column can be followed. -/
structure SafeSeries (env : Env) (s : Series) : Prop where
  chunks : ∀ c ∈ s.chunks, SafeChunk c
  cur : ∀ v ∈ s.cur, RefFits env s.binary s.shared.length s.xdtr v

/-- Two columns of the same sheet. -/
def SameSheet (s t : Series) : Prop := s.binary = t.binary ∧ s.shared = t.shared

theorem flush_safe (env : Env) (s : Series) (h : SafeSeries env s) :
    InBounds (s.flush env) ∧ ∀ t, s.flush env = .ok t → SafeSeries env t ∧ SameSheet t s ∧ t.cur = [] ∧ t.xdtr = s.xdtr := by
  unfold Series.flush
  split
  · rename_i he
    refine ⟨by simp, fun t ht => ?_⟩
    injection ht with ht; subst ht
    exact ⟨h, ⟨rfl, rfl⟩, by simpa using he, rfl⟩
  · unfold Series.pull
    have := makeChunk_safe env s.binary s.shared s.xdtr s.cur h.cur
    split
    · rename_i e; rw [e] at this; exact ⟨by simpa using this.1, by simp⟩
    · rename_i c e
      refine ⟨by simp, fun t ht => ?_⟩
      injection ht with ht; subst ht
      refine ⟨⟨?_, by simp⟩, ⟨rfl, rfl⟩, rfl, rfl⟩
      intro c' hc
      simp only [List.mem_append, List.mem_singleton] at hc
      rcases hc with (hc | hc) | hc
      · exact h.chunks c' hc
      · split at hc
        · simp only [List.mem_singleton] at hc; subst hc; exact safe_pred.nulls _
        · simp at hc
      · subst hc; exact this.2 _ e

theorem gap_safe (env : Env) (s : Series) (row : Nat) (h : SafeSeries env s) :
    InBounds (s.gap env row) ∧ ∀ t, s.gap env row = .ok t → SafeSeries env t ∧ SameSheet t s := by
  unfold Series.gap
  split
  · have h1 := flush_safe env s h
    split
    · rename_i e; rw [e] at h1; exact ⟨by simpa using h1.1, by simp⟩
    · rename_i s' e
      refine ⟨by simp, fun t ht => ?_⟩
      injection ht with ht; subst ht
      obtain ⟨g1, g2, g3, _⟩ := h1.2 s' e
      exact ⟨⟨g1.chunks, by simp [g3]⟩, g2⟩
  · refine ⟨by simp, fun t ht => ?_⟩
    injection ht with ht; subst ht; exact ⟨h, ⟨rfl, rfl⟩⟩

theorem retype_safe (env : Env) (s : Series) (xdt : Nat) (h : SafeSeries env s) :
    InBounds (s.retype env xdt) ∧ ∀ t, s.retype env xdt = .ok t → SafeSeries env t ∧ SameSheet t s ∧ t.xdtr = xdt := by
  unfold Series.retype
  split
  · have h1 := flush_safe env s h
    split
    · rename_i e; rw [e] at h1; exact ⟨by simpa using h1.1, by simp⟩
    · rename_i s' e
      refine ⟨by simp, fun t ht => ?_⟩
      injection ht with ht; subst ht
      obtain ⟨g1, g2, g3, _⟩ := h1.2 s' e
      exact ⟨⟨g1.chunks, by simp [g3]⟩, g2, rfl⟩
  · rename_i hx
    refine ⟨by simp, fun t ht => ?_⟩
    injection ht with ht; subst ht; exact ⟨h, ⟨rfl, rfl⟩, (not_not.mp hx).symm⟩

theorem add_safe (env : Env) (s : Series) (c : Cell) (h : SafeSeries env s)
    (hc : RefFits env s.binary s.shared.length c.xdt c.val) :
    InBounds (s.add env c) ∧ ∀ t, s.add env c = .ok t → SafeSeries env t ∧ SameSheet t s := by
  unfold Series.add
  split
  · refine ⟨by simp, fun t ht => ?_⟩
    injection ht with ht; subst ht; exact ⟨h, ⟨rfl, rfl⟩⟩
  · have h1 := gap_safe env s c.row h
    split
    · rename_i e; rw [e] at h1; exact ⟨by simpa using h1.1, by simp⟩
    · rename_i s1 e
      obtain ⟨g1, g2⟩ := h1.2 s1 e
      have h2 := retype_safe env s1 c.xdt g1
      split
      · rename_i e; rw [e] at h2; exact ⟨by simpa using h2.1, by simp⟩
      · rename_i s2 e
        obtain ⟨k1, k2, k3⟩ := h2.2 s2 e
        refine ⟨by simp, fun t ht => ?_⟩
        injection ht with ht; subst ht
        refine ⟨⟨k1.chunks, ?_⟩, ⟨k2.1.trans g2.1, k2.2.trans g2.2⟩⟩
        intro v hv
        simp only [List.mem_append, List.mem_singleton] at hv
        rcases hv with hv | hv
        · exact k1.cur v hv
        · subst hv
          simp only
          rw [k3, k2.1, k2.2, g2.1, g2.2]; exact hc

theorem toArrow_safe (env : Env) (s : Series) (off len : Int) (m : Option (List Bool)) (h : SafeSeries env s) :
    SafeSeries env (s.toArrow env off len m).1 ∧ InBounds (s.toArrow env off len m).2 := by
  unfold Series.toArrow
  have h1 := flush_safe env s h
  split
  · rename_i e; rw [e] at h1; exact ⟨h, by simpa using h1.1⟩
  · rename_i s' e
    obtain ⟨g1, _, g3, _⟩ := h1.2 s' e
    split
    · exact ⟨g1, by simp⟩
    · have h2 := concatenate_safe env s'.opts s'.chunks off len m g1.chunks
      split
      · rename_i e; rw [e] at h2; exact ⟨⟨h2.1, by simp [g3]⟩, by simp⟩
      · rename_i e; rw [e] at h2; exact ⟨⟨h2.1, by simp [g3]⟩, by simpa using h2.2⟩

theorem toUtf8_safe (env : Env) (s : Series) (off len : Int) (m : Option (List Bool)) (h : SafeSeries env s) :
    SafeSeries env (s.toUtf8 env off len m).1 ∧ InBounds (s.toUtf8 env off len m).2 := by
  unfold Series.toUtf8
  have h1 := toArrow_safe env s off len m h
  split
  · rename_i e; rw [e] at h1; exact ⟨h1.1, by simp⟩
  · rename_i a e; rw [e] at h1
    refine ⟨h1.1, ?_⟩
    have := castArr_inBounds env .utf8 a
    simp only
    split <;> simp_all
  · rename_i e; rw [e] at h1; exact ⟨h1.1, by simpa using h1.2⟩

end Rxls
