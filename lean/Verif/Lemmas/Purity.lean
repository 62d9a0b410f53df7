import Verif.Lemmas.ConcatAbs

/-! # Repeated calls of concatenate -/

namespace Rxls

/-- The same cells of the same kind, with the right size. -/
def SameCells (c c' : Chunk) : Prop := ∃ k vs, c.Holds k vs ∧ c'.Holds k vs

theorem selectList_nat (ix : TakeIdx) (n : Nat) :
    (∀ {α : Type} (e : PyErr) (l : List α), l.length = n → selectList e l ix = .error e) ∨
    ∃ S : Sel, ∀ {α : Type} (e : PyErr) (l : List α), l.length = n → selectList e l ix = .ok (S.f l) := by
  cases ix with
  | «at» i => exact .inr ⟨⟨fun l => sliceList l ⟨some i, some (i + 1), none⟩, fun g l => sliceList_map g l _⟩,
      fun e l _ => rfl⟩
  | slice s => exact .inr ⟨⟨fun l => sliceList l s, fun g l => sliceList_map g l _⟩, fun e l _ => rfl⟩
  | mask m =>
    by_cases h : m.length = n
    · exact .inr ⟨⟨fun l => maskList l m, fun g l => maskList_map g l m⟩,
        fun e l hl => by simp [selectList, h, hl]⟩
    · exact .inl fun e l hl => by simp [selectList, hl, h]

/-- `take` with an index that does not fit. -/
theorem take_bad (c : Chunk) (k : Cls) (vs : List (Option Val)) (h : Denotes c k vs) (hk : k ≠ .null)
    (ix : TakeIdx)
    (hsel : ∀ {α : Type} (e : PyErr) (l : List α), l.length = vs.length → selectList e l ix = .error e) :
    c.take ix = .error (if k = .utf8 then .arrowInvalid else .indexError) := by
  cases h with
  | null n sz sr => exact absurd rfl hk
  | str l sz sr => simp [Chunk.take, hasBit, TYPE_STRING, hsel .arrowInvalid l (by simp), bind, Except.bind]
  | shared l sz sr vs h =>
    have hl : l.length = vs.length := by simpa using congrArg List.length h
    simp [Chunk.take, hasBit, TYPE_STRING, hsel .arrowInvalid l (by simpa using hl), bind, Except.bind]
  | num l t sz sr h =>
    rcases h with rfl | rfl <;>
    simp [Chunk.take, hasBit, TYPE_STRING, hsel .indexError l (by simp), bind, Except.bind]
  | rk l sz sr => simp [Chunk.take, hasBit, TYPE_STRING, hsel .indexError l (by simp), bind, Except.bind]
  | serial l sz sr => simp [Chunk.take, hasBit, TYPE_STRING, hsel .indexError l (by simp), bind, Except.bind]
  | rkSerial l sz sr => simp [Chunk.take, hasBit, TYPE_STRING, hsel .indexError l (by simp), bind, Except.bind]
  | ms l t sz sr h =>
    rcases h with rfl | rfl <;>
    simp [Chunk.take, hasBit, TYPE_STRING, hsel .indexError l (by simp), bind, Except.bind]

theorem Chunk.Holds.nulls (n : Nat) : (Chunk.nulls n).Holds .null (List.replicate n none) :=
  ⟨.null _ _ _, by simp [Chunk.nulls]⟩

/-- Two outcomes: the same exception, or related values. -/
def SameOut {α β : Type} (R : α → β → Prop) (x : Py α) (y : Py β) : Prop :=
  (∃ e, x = .error e ∧ y = .error e) ∨ ∃ a b, x = .ok a ∧ y = .ok b ∧ R a b

theorem take_same {c c' : Chunk} (h : SameCells c c') (ix : TakeIdx) :
    SameOut SameCells (c.take ix) (c'.take ix) := by
  obtain ⟨k, vs, h, h'⟩ := h
  by_cases hk : k = .null
  · subst hk
    obtain ⟨hd, hs⟩ := h
    obtain ⟨hd', hs'⟩ := h'
    cases hd with
    | null n sz sr =>
      generalize hvs : List.replicate n (none : Option Val) = vs at hd' hs'
      cases hd' with
      | null n' sz' sr' =>
        have hn : n = n' := by simpa using congrArg List.length hvs
        subst hn
        simp at hs hs'
        rw [hs, hs']
        have : (⟨.nulls n, 0, n, sr'⟩ : Chunk).take ix = (⟨.nulls n, 0, n, sr⟩ : Chunk).take ix := by
          cases ix <;> simp [Chunk.take, hasBit]
        rw [this]
        cases ix with
        | «at» i => exact .inr ⟨_, _, by simp [Chunk.take, hasBit, TYPE_STRING]; rfl, by simp [Chunk.take, hasBit, TYPE_STRING], _, _, Chunk.Holds.nulls _, Chunk.Holds.nulls _⟩
        | slice s => exact .inr ⟨_, _, by simp [Chunk.take, hasBit, TYPE_STRING]; rfl, by simp [Chunk.take, hasBit, TYPE_STRING], _, _, Chunk.Holds.nulls _, Chunk.Holds.nulls _⟩
        | mask m =>
          simp only [Chunk.take, hasBit, TYPE_STRING]
          by_cases hm : n < m.length
          · exact .inl ⟨.valueError, by simp [hm]⟩
          · exact .inr ⟨Chunk.nulls (trueCount m), Chunk.nulls (trueCount m), by simp [hm], by simp [hm], _, _, Chunk.Holds.nulls _, Chunk.Holds.nulls _⟩
  · rcases selectList_nat ix vs.length with hb | ⟨S, hS⟩
    · exact .inl ⟨_, take_bad c k vs h.1 hk ix hb, take_bad c' k vs h'.1 hk ix hb⟩
    · obtain ⟨d, e, hd, _⟩ := take_sel c k vs h.1 hk ix S hS
      obtain ⟨d', e', hd', _⟩ := take_sel c' k vs h'.1 hk ix S hS
      exact .inr ⟨d, d', e, e', k, _, hd, hd'⟩

theorem SameCells.size {c c' : Chunk} (h : SameCells c c') : c.size = c'.size := by
  obtain ⟨k, vs, h, h'⟩ := h
  rw [h.2, h'.2]

/-- Selections with the same cells and the same aliases. -/
def SameTaken (t t' : Taken) : Prop := SameCells t.1 t'.1 ∧ t.2 = t'.2

theorem cutTop_same {c c' : Chunk} (h : SameCells c c') (i : Nat) (o : Int) :
    SameOut SameTaken (cutTop c i o) (cutTop c' i o) := by
  unfold cutTop
  by_cases ho : 0 < o
  · simp only [ho, if_true]
    rcases take_same h (.slice ⟨some o, none, none⟩) with ⟨e, e1, e2⟩ | ⟨d, d', e1, e2, hd⟩
    · exact .inl ⟨e, by rw [e1], by rw [e2]⟩
    · exact .inr ⟨(d, none), (d', none), by rw [e1], by rw [e2], hd, rfl⟩
  · simp only [ho, if_false]
    exact .inr ⟨_, _, rfl, rfl, h, rfl⟩

theorem cutBottom_same {t t' : Taken} (h : SameTaken t t') (l cum : Int) :
    SameOut SameTaken (cutBottom t l cum) (cutBottom t' l cum) := by
  unfold cutBottom
  rw [h.1.size]
  by_cases ho : l ≠ 0 ∧ l < cum
  · rw [if_pos ho, if_pos ho]
    rcases take_same h.1 (.slice ⟨none, some (t'.1.size + l - cum), none⟩) with ⟨e, e1, e2⟩ | ⟨d, d', e1, e2, hd⟩
    · exact .inl ⟨e, by rw [e1], by rw [e2]⟩
    · exact .inr ⟨(d, none), (d', none), by rw [e1], by rw [e2], hd, rfl⟩
  · rw [if_neg ho, if_neg ho]
    exact .inr ⟨_, _, rfl, rfl, h⟩

theorem keep_same {t t' : Taken} (h : SameTaken t t') :
    List.Forall₂ SameTaken (keepTaken t) (keepTaken t') := by
  unfold keepTaken
  rw [h.1.size]
  by_cases h0 : t'.1.size = 0
  · simp [h0]
  · simp [h0]; exact h

def SameSel (p p' : List Taken × Int) : Prop := List.Forall₂ SameTaken p.1 p'.1 ∧ p.2 = p'.2

theorem takeLoop_same (len : Int) {cs cs' : List Chunk} (h : List.Forall₂ SameCells cs cs') :
    ∀ (i : Nat) (o cum : Int), SameOut SameSel (takeLoop len cs i o cum) (takeLoop len cs' i o cum) := by
  induction h with
  | nil => intro i o cum; exact .inr ⟨_, _, rfl, rfl, .nil, rfl⟩
  | @cons c c' cs cs' hc _ ih =>
    intro i o cum
    rw [takeLoop, takeLoop, hc.size]
    by_cases hs : 0 < o ∧ (c'.size : Int) ≤ o
    · rw [if_pos hs, if_pos hs]; exact ih _ _ _
    · rw [if_neg hs, if_neg hs]
      rcases cutTop_same hc i o with ⟨e, e1, e2⟩ | ⟨t, t', e1, e2, ht⟩
      · exact .inl ⟨e, by rw [e1], by rw [e2]⟩
      · rw [e1, e2]
        simp only [ht.1.size]
        rcases cutBottom_same ht len (cum + t'.1.size) with ⟨e, e1, e2⟩ | ⟨u, u', e1, e2, hu⟩
        · exact .inl ⟨e, by rw [e1], by rw [e2]⟩
        · simp only [e1, e2]
          by_cases hl : len ≤ cum + t'.1.size
          · rw [if_pos hl, if_pos hl]
            exact .inr ⟨_, _, rfl, rfl, keep_same hu, rfl⟩
          · rw [if_neg hl, if_neg hl]
            rcases ih (i + 1) (if 0 < o then 0 else o) (cum + t'.1.size) with ⟨e, e1, e2⟩ | ⟨p, p', e1, e2, hp⟩
            · exact .inl ⟨e, by rw [e1], by rw [e2]⟩
            · obtain ⟨r, n⟩ := p
              obtain ⟨r', n'⟩ := p'
              rw [e1, e2]
              exact .inr ⟨_, _, rfl, rfl, List.rel_append (keep_same hu) hp.1, hp.2⟩

theorem takeLoopIdx_same (m : List Bool) {cs cs' : List Chunk} (h : List.Forall₂ SameCells cs cs') :
    ∀ (i : Nat) (o cum : Int), SameOut SameSel (takeLoopIdx m cs i o cum) (takeLoopIdx m cs' i o cum) := by
  induction h with
  | nil => intro i o cum; exact .inr ⟨_, _, rfl, rfl, .nil, rfl⟩
  | @cons c c' cs cs' hc _ ih =>
    intro i o cum
    rw [takeLoopIdx, takeLoopIdx, hc.size]
    by_cases hs : 0 < o ∧ (c'.size : Int) ≤ o
    · rw [if_pos hs, if_pos hs]; exact ih _ _ _
    · rw [if_neg hs, if_neg hs]
      rcases cutTop_same hc 0 o with ⟨e, e1, e2⟩ | ⟨⟨c1, a1⟩, ⟨c1', a1'⟩, e1, e2, ht⟩
      · exact .inl ⟨e, by rw [e1], by rw [e2]⟩
      · rw [e1, e2]
        have hsz : c1.size = c1'.size := ht.1.size
        simp only [hsz]
        by_cases hz : trueCount ((m.drop i).take c1'.size) = 0
        · rw [if_pos hz, if_pos hz]; exact ih _ _ _
        · rw [if_neg hz, if_neg hz]
          rcases take_same ht.1 (.slice ⟨none, some ((m.drop i).take c1'.size).length, none⟩) with
            ⟨e, e1, e2⟩ | ⟨d, d', e1, e2, hd⟩
          · exact .inl ⟨e, by rw [e1], by rw [e2]⟩
          · simp only at e1 e2
            rw [e1, e2]
            simp only
            rcases take_same hd (.mask ((m.drop i).take c1'.size)) with ⟨e, e1, e2⟩ | ⟨f, f', e1, e2, hf⟩
            · exact .inl ⟨e, by rw [e1], by rw [e2]⟩
            · rw [e1, e2]
              simp only [hf.size]
              rcases ih (i + c1'.size) (if 0 < o then 0 else o) (if f'.size ≠ 0 then cum + f'.size else cum) with
                ⟨e, e1, e2⟩ | ⟨p, p', e1, e2, hp⟩
              · exact .inl ⟨e, by rw [e1], by rw [e2]⟩
              · obtain ⟨r, n⟩ := p
                obtain ⟨r', n'⟩ := p'
                rw [e1, e2]
                exact .inr ⟨_, _, rfl, rfl, List.rel_append (keep_same (t := (f, none)) (t' := (f', none)) ⟨hf, rfl⟩) hp.1, hp.2⟩

theorem same_nulls (b : Prop) [Decidable b] (n : Nat) : List.Forall₂ SameTaken
    (if b then [(Chunk.nulls n, none)] else []) (if b then [(Chunk.nulls n, none)] else []) := by
  by_cases h : b
  · rw [if_pos h]; exact .cons ⟨⟨_, _, Chunk.Holds.nulls n, Chunk.Holds.nulls n⟩, rfl⟩ .nil
  · rw [if_neg h]; exact .nil

theorem takeOver_same {cs cs' : List Chunk} (h : List.Forall₂ SameCells cs cs') (o l : Int)
    (m : Option (List Bool)) :
    SameOut (List.Forall₂ SameTaken) (takeOver cs o l m) (takeOver cs' o l m) := by
  cases m with
  | none =>
    simp only [takeOver]
    rcases takeLoop_same l h 0 o 0 with ⟨e, e1, e2⟩ | ⟨⟨r, n⟩, ⟨r', n'⟩, e1, e2, hp⟩
    · exact .inl ⟨e, by rw [e1], by rw [e2]⟩
    · rw [e1, e2]
      have : n = n' := hp.2
      subst this
      exact .inr ⟨_, _, rfl, rfl, List.rel_append hp.1 (same_nulls _ _)⟩
  | some m =>
    simp only [takeOver]
    by_cases h0 : trueCount m = 0
    · rw [if_pos h0, if_pos h0]; exact .inr ⟨_, _, rfl, rfl, .nil⟩
    · rw [if_neg h0, if_neg h0]
      rcases takeLoopIdx_same m h 0 o 0 with ⟨e, e1, e2⟩ | ⟨⟨r, n⟩, ⟨r', n'⟩, e1, e2, hp⟩
      · exact .inl ⟨e, by rw [e1], by rw [e2]⟩
      · rw [e1, e2]
        have : n = n' := hp.2
        subst this
        exact .inr ⟨_, _, rfl, rfl, List.rel_append hp.1 (same_nulls _ _)⟩

/-! ## The result does not depend on the representation -/

theorem aInt_looked (p : Nat) (as : List ACh) : aInt p (as.map ACh.looked) = aInt p as := by
  induction as with
  | nil => rfl
  | cons a as ih => cases a <;> simp [aInt, ACh.looked, ih]

theorem any_looked (as : List ACh) (k : Cls) :
    ((as.map ACh.looked).any fun a => a.cls == k) = as.any fun a => a.cls == k := by
  rw [List.any_map]; congr 1; funext a; simp [Function.comp, ACh.looked_cls]

theorem aType_looked (o : ConcatOpts) (t n f : Bool) (as : List ACh) :
    aType o t n f (as.map ACh.looked) = aType o t n f as := by
  simp only [aType, aInt_looked]

theorem mapPy_looked (env : Env) (dt : DType) (as : List ACh) :
    mapPy (fun a => castVals env dt a.cells) (as.map ACh.looked) = mapPy (fun a => castVals env dt a.cells) as := by
  induction as with
  | nil => rfl
  | cons a as ih => rw [List.map_cons, mapPy, mapPy, ih, ACh.looked_cells]

theorem aNumLoop_looked (env : Env) (as : List ACh) :
    ((aNumLoop env (as.map ACh.looked)).1.map ACh.looked = (aNumLoop env as).1.map ACh.looked) ∧
    (aNumLoop env (as.map ACh.looked)).2 = (aNumLoop env as).2 := by
  induction as with
  | nil => exact ⟨rfl, rfl⟩
  | cons a as ih =>
    rcases h1 : aNumLoop env (as.map ACh.looked) with ⟨b1, f1⟩
    rcases h2 : aNumLoop env as with ⟨b2, f2⟩
    rw [h1, h2] at ih
    simp only at ih
    cases a with
    | str l raw =>
      simp only [List.map_cons, ACh.looked, aNumLoop]
      cases aNumeric env l with
      | ok xs => simp [h1, h2, ih.1, ih.2]
      | error e =>
        simp only [List.map_cons, ACh.looked, List.map_map]
        refine ⟨?_, trivial⟩
        congr 1
        apply List.map_congr_left
        intro x _
        exact ACh.looked_looked x
    | _ => simp [ACh.looked, aNumLoop, h1, h2, ih.1, ih.2]

/-- Without datetime resolution the result does not depend on whether shared strings were looked up. -/
theorem aConcat_looked (env : Env) (o : ConcatOpts) (ho : o.confDt = false) (as : List ACh) :
    aConcat env o (as.map ACh.looked) = aConcat env o as := by
  unfold aConcat
  simp only [any_looked]
  have key : ∃ bs bs' f, aConvert env o (as.map ACh.looked) = .ok (bs, f) ∧ aConvert env o as = .ok (bs', f) ∧
      bs.map ACh.looked = bs'.map ACh.looked := by
    have hll : (as.map ACh.looked).map ACh.looked = as.map ACh.looked := by
      rw [List.map_map]
      apply List.map_congr_left
      intro x _; exact ACh.looked_looked x
    unfold aConvert
    simp only [any_looked, ho, Bool.false_eq_true, if_false]
    cases as.any fun a => a.cls == .temp with
    | true => exact ⟨_, _, _, rfl, rfl, hll⟩
    | false =>
      simp only [Bool.false_eq_true, if_false]
      cases ((as.any fun a => a.cls == .nums) && (as.any fun a => a.cls == .utf8)) with
      | false => exact ⟨_, _, _, rfl, rfl, hll⟩
      | true =>
        simp only [if_true]
        cases o.confNum with
        | false => exact ⟨_, _, _, rfl, rfl, hll⟩
        | true =>
          simp only [if_true]
          have h := aNumLoop_looked env as
          refine ⟨_, _, _, rfl, ?_, h.1⟩
          rw [h.2]
  obtain ⟨bs, bs', f, e1, e2, hb⟩ := key
  rw [e1, e2]
  simp only
  rw [← aType_looked (as := bs), ← aType_looked (as := bs'), hb]
  congr 1
  funext dt
  rw [← mapPy_looked (as := bs), ← mapPy_looked (as := bs'), hb]

/-- Lists of chunks with the same cells give the same result. -/
theorem concat_same (env : Env) (o : ConcatOpts) (ho : o.confDt = false) {cs cs' : List Chunk}
    (h : List.Forall₂ SameCells cs cs') :
    (concatSlots env o (cs.map fun c => ⟨c, none⟩)).2 = (concatSlots env o (cs'.map fun c => ⟨c, none⟩)).2 := by
  have key : ∃ as as', List.Forall₂ Abs cs as ∧ List.Forall₂ Abs cs' as' ∧
      as.map ACh.looked = as'.map ACh.looked := by
    induction h with
    | nil => exact ⟨[], [], .nil, .nil, rfl⟩
    | cons h _ ih =>
      obtain ⟨as, as', h1, h2, h3⟩ := ih
      obtain ⟨k, vs, hc, hc'⟩ := h
      obtain ⟨a, ha, hk, hv⟩ := hc.1.abs
      obtain ⟨a', ha', hk', hv'⟩ := hc'.1.abs
      refine ⟨a :: as, a' :: as', .cons ha h1, .cons ha' h2, ?_⟩
      rw [List.map_cons, List.map_cons, h3, ACh.looked_ext (hk.trans hk'.symm) (hv.trans hv'.symm)]
  obtain ⟨as, as', h1, h2, h3⟩ := key
  have lift : ∀ {cs : List Chunk} {as : List ACh}, List.Forall₂ Abs cs as →
      List.Forall₂ (fun s a => Abs s.cur a) (cs.map fun c => (⟨c, none⟩ : Slot)) as := by
    intro cs as h
    induction h with
    | nil => exact .nil
    | cons h _ ih => exact .cons h ih
  rw [(concatSlots_abs env o _ as (lift h1)).2, (concatSlots_abs env o _ as' (lift h2)).2,
    ← aConcat_looked env o ho as, ← aConcat_looked env o ho as', h3]

theorem concatenate_same (env : Env) (o : ConcatOpts) (ho : o.confDt = false) {cs cs' : List Chunk}
    (h : List.Forall₂ SameCells cs cs') (off len : Int) (m : Option (List Bool)) :
    (concatenate env o cs off len m).2 = (concatenate env o cs' off len m).2 := by
  unfold concatenate
  by_cases hw : off ≠ 0 ∨ len ≠ 0 ∨ m.isSome
  · rw [if_pos hw, if_pos hw]
    rcases takeOver_same h off len m with ⟨e, e1, e2⟩ | ⟨t, t', e1, e2, ht⟩
    · rw [e1, e2]
    · rw [e1, e2]
      have := concat_same env o ho (cs := t.map (·.1)) (cs' := t'.map (·.1)) (by
        clear e1 e2
        induction ht with
        | nil => exact .nil
        | cons h _ ih => exact .cons h.1 ih)
      rw [List.map_map, List.map_map] at this
      exact this
  · rw [if_neg hw, if_neg hw]
    exact concat_same env o ho h

/-! ## What a call leaves behind -/

theorem Chunk.Keeps.same {c c' : Chunk} {k vs} (h : c.Keeps c') (hc : c.Holds k vs) : c'.Holds k vs := by
  obtain ⟨a, ha, hk, hv⟩ := hc.1.abs
  obtain ⟨a', ha', e, _⟩ := h.2 a ha
  have h1 := ha'.denotes
  rw [← ACh.looked_cls, ← ACh.looked_cells, e, ACh.looked_cls, ACh.looked_cells, hk, hv] at h1
  exact ⟨h1, by rw [h.1]; exact hc.2⟩

theorem intLoop_norep (p : Nat) : ∀ (ss : List Slot), (∀ s ∈ ss, s.rep = none) →
    ∀ s ∈ (intLoop p ss).1, s.rep = none
  | [], _ => by simp [intLoop]
  | s :: ss, h => by
    have ih := intLoop_norep p ss (fun x hx => h x (by simp [hx]))
    have h0 := h s (by simp)
    have hrest : ∀ x ∈ ss, x.rep = none := fun x hx => h x (by simp [hx])
    have hm : ∀ c, (s.mutate c).rep = none := by
      intro c
      have := mutate_rep s c
      rw [h0] at this
      simpa using this
    rw [intLoop]
    by_cases hz : s.cur.typ = 0
    · rw [if_pos hz]
      intro x hx
      rcases List.mem_cons.mp hx with rfl | hx
      · exact h0
      · exact ih x hx
    · rw [if_neg hz]
      cases s.cur.prepare with
      | error e => exact h
      | ok c' =>
        simp only
        cases c'.data with
        | f8 l =>
          simp only
          by_cases hi : f8IsI8 l p
          · rw [if_pos hi]
            intro x hx
            rcases List.mem_cons.mp hx with rfl | hx
            · exact hm _
            · exact ih x hx
          · rw [if_neg hi]
            intro x hx
            rcases List.mem_cons.mp hx with rfl | hx
            · exact hm _
            · exact hrest x hx
        | _ =>
          intro x hx
          rcases List.mem_cons.mp hx with rfl | hx
          · exact hm _
          · exact hrest x hx

theorem arrowPass_norep (env : Env) (dt : DType) : ∀ (ss : List Slot), (∀ s ∈ ss, s.rep = none) →
    ∀ s ∈ (passSlots (stepArrow env dt) ss).1, s.rep = none
  | [], _ => by simp [passSlots]
  | s :: ss, h => by
    have ih := arrowPass_norep env dt ss (fun x hx => h x (by simp [hx]))
    have h0 := h s (by simp)
    have hrest : ∀ x ∈ ss, x.rep = none := fun x hx => h x (by simp [hx])
    have hm : (stepArrow env dt s).1.rep = none := by
      have := mutate_rep s (s.cur.arrow env dt).1
      rw [h0] at this
      simpa [stepArrow] using this
    rw [passSlots]
    rcases hs : stepArrow env dt s with ⟨s', r⟩
    rw [hs] at hm
    rcases hp : passSlots (stepArrow env dt) ss with ⟨ss', r'⟩
    rw [hp] at ih
    cases r with
    | error e =>
      intro x hx
      rcases List.mem_cons.mp hx with rfl | hx
      · exact hm
      · exact hrest x hx
    | ok a =>
      cases r' <;>
      · intro x hx
        rcases List.mem_cons.mp hx with rfl | hx
        · exact hm
        · exact ih x hx

theorem concatSlots_norep (env : Env) (o : ConcatOpts) (h1 : o.confDt = false) (h2 : o.confNum = false)
    (ss : List Slot) (h : ∀ s ∈ ss, s.rep = none) : ∀ s ∈ (concatSlots env o ss).1, s.rep = none := by
  have hconv : ∃ f, convertPhase env o ss = (ss, .ok f) := by
    unfold convertPhase
    simp only [h1, h2, Bool.false_eq_true, if_false]
    split
    · exact ⟨_, rfl⟩
    · split
      · exact ⟨_, rfl⟩
      · exact ⟨_, rfl⟩
  obtain ⟨f, hf⟩ := hconv
  unfold concatSlots
  simp only [hf]
  have ht : ∀ a b, ∀ s ∈ (typePhase o a b f ss).1, s.rep = none := by
    intro a b
    unfold typePhase
    split
    · exact h
    · split
      · exact h
      · split
        · have := intLoop_norep o.prec ss h
          rcases hi : intLoop o.prec ss with ⟨s', r⟩
          rw [hi] at this
          cases r <;> exact this
        · exact h
  specialize ht (ss.any fun s => s.cur.cls == .temp) (ss.any fun s => s.cur.cls == .nums)
  rcases hty : typePhase o (ss.any fun s => s.cur.cls == .temp) (ss.any fun s => s.cur.cls == .nums) f ss
    with ⟨ss1, r1⟩
  rw [hty] at ht
  cases r1 with
  | error e => exact ht
  | ok dt =>
    simp only
    have := arrowPass_norep env dt ss1 ht
    rcases hp : passSlots (stepArrow env dt) ss1 with ⟨ss2, r2⟩
    rw [hp] at this
    cases r2 with
    | error e => exact this
    | ok arrs =>
      simp only
      split <;> exact this

/-- A selected chunk that is an object of the caller's list is the object at that position. -/
theorem takeLoop_alias (len : Int) : ∀ (cs : List Chunk) (i : Nat) (o cum : Int) (r : List Taken) (n : Int),
    takeLoop len cs i o cum = .ok (r, n) → ∀ c j, (c, some j) ∈ r → i ≤ j ∧ cs[j - i]? = some c
  | [], i, o, cum, r, n, h => by
    simp [takeLoop] at h
    intro c j hm
    rw [h.1] at hm
    simp at hm
  | d :: cs, i, o, cum, r, n, h => by
    intro c j hm
    have hrec : ∀ (o cum : Int) (r : List Taken) (n : Int), takeLoop len cs (i + 1) o cum = .ok (r, n) →
        (c, some j) ∈ r → i ≤ j ∧ (d :: cs)[j - i]? = some c := by
      intro o cum r n h hm
      obtain ⟨h1, h2⟩ := takeLoop_alias len cs (i + 1) o cum r n h c j hm
      refine ⟨by omega, ?_⟩
      rw [show j - i = (j - (i + 1)) + 1 by omega, List.getElem?_cons_succ]
      exact h2
    have htop : ∀ t, cutTop d i o = .ok t → ∀ a, t.2 = some a → t.1 = d ∧ a = i := by
      intro t ht a ha
      unfold cutTop at ht
      by_cases ho : 0 < o
      · rw [if_pos ho] at ht
        cases hk : d.take (.slice ⟨some o, none, none⟩) with
        | ok c => rw [hk] at ht; injection ht with ht; rw [← ht] at ha; simp at ha
        | error e => rw [hk] at ht; simp at ht
      · rw [if_neg ho] at ht
        injection ht with ht
        rw [← ht] at ha ⊢
        injection ha with ha
        exact ⟨rfl, ha.symm⟩
    have hbot : ∀ t l k u, cutBottom t l k = .ok u → ∀ a, u.2 = some a → u = t := by
      intro t l k u hu a ha
      unfold cutBottom at hu
      by_cases hl : l ≠ 0 ∧ l < k
      · rw [if_pos hl] at hu
        cases hk : t.1.take (.slice ⟨none, some (t.1.size + l - k), none⟩) with
        | ok c => rw [hk] at hu; injection hu with hu; rw [← hu] at ha; simp at ha
        | error e => rw [hk] at hu; simp at hu
      · rw [if_neg hl] at hu
        injection hu with hu
        exact hu.symm
    rw [takeLoop] at h
    by_cases hs : 0 < o ∧ (d.size : Int) ≤ o
    · rw [if_pos hs] at h; exact hrec _ _ _ _ h hm
    · rw [if_neg hs] at h
      cases h1 : cutTop d i o with
      | error e => rw [h1] at h; simp at h
      | ok t1 =>
        rw [h1] at h
        simp only at h
        cases h2 : cutBottom t1 len (cum + t1.1.size) with
        | error e => rw [h2] at h; simp at h
        | ok t2 =>
          rw [h2] at h
          simp only at h
          have hkeep : (c, some j) ∈ keepTaken t2 → i ≤ j ∧ (d :: cs)[j - i]? = some c := by
            intro hk
            unfold keepTaken at hk
            split at hk
            · rw [List.mem_singleton] at hk
              have e1 := hbot t1 _ _ t2 h2 j (by rw [← hk])
              rw [e1] at hk
              have e2 := htop t1 h1 j (by rw [← hk])
              rw [← hk] at e2
              obtain ⟨e2, e3⟩ := e2
              simp only at e2
              subst e2; subst e3
              simp
            · simp at hk
          by_cases hl : len ≤ cum + t1.1.size
          · rw [if_pos hl] at h
            injection h with h; injection h with h _
            rw [← h] at hm
            exact hkeep hm
          · rw [if_neg hl] at h
            cases h3 : takeLoop len cs (i + 1) (if 0 < o then 0 else o) (cum + t1.1.size) with
            | error e => rw [h3] at h; simp at h
            | ok p =>
              obtain ⟨r', n'⟩ := p
              rw [h3] at h
              simp only at h
              injection h with h; injection h with h _
              rw [← h] at hm
              rcases List.mem_append.mp hm with hm | hm
              · exact hkeep hm
              · exact hrec _ _ _ _ h3 hm

theorem takeLoopIdx_alias (m : List Bool) : ∀ (cs : List Chunk) (i : Nat) (o cum : Int) (r : List Taken) (n : Int),
    takeLoopIdx m cs i o cum = .ok (r, n) → ∀ t ∈ r, t.2 = none
  | [], i, o, cum, r, n, h => by
    simp [takeLoopIdx] at h
    rw [h.1]; simp
  | d :: cs, i, o, cum, r, n, h => by
    rw [takeLoopIdx] at h
    by_cases hs : 0 < o ∧ (d.size : Int) ≤ o
    · rw [if_pos hs] at h; exact takeLoopIdx_alias m cs _ _ _ _ _ h
    · rw [if_neg hs] at h
      cases h1 : cutTop d 0 o with
      | error e => rw [h1] at h; simp at h
      | ok t1 =>
        obtain ⟨c1, a1⟩ := t1
        rw [h1] at h
        simp only at h
        by_cases hz : trueCount ((m.drop i).take c1.size) = 0
        · rw [if_pos hz] at h; exact takeLoopIdx_alias m cs _ _ _ _ _ h
        · rw [if_neg hz] at h
          cases h2 : c1.take (.slice ⟨none, some ((m.drop i).take c1.size).length, none⟩) with
          | error e => rw [h2] at h; simp at h
          | ok c2 =>
            rw [h2] at h
            simp only at h
            cases h3 : c2.take (.mask ((m.drop i).take c1.size)) with
            | error e => rw [h3] at h; simp at h
            | ok it =>
              rw [h3] at h
              simp only at h
              cases h4 : takeLoopIdx m cs (i + c1.size) (if 0 < o then 0 else o)
                  (if it.size ≠ 0 then cum + it.size else cum) with
              | error e => rw [h4] at h; simp at h
              | ok p =>
                obtain ⟨r', n'⟩ := p
                rw [h4] at h
                simp only at h
                injection h with h; injection h with h _
                intro t ht
                rw [← h] at ht
                rcases List.mem_append.mp ht with ht | ht
                · unfold keepTaken at ht
                  split at ht
                  · rw [List.mem_singleton] at ht; rw [ht]
                  · simp at ht
                · exact takeLoopIdx_alias m cs _ _ _ _ _ h4 t ht

theorem takeOver_alias (cs : List Chunk) (o l : Int) (m : Option (List Bool)) (r : List Taken)
    (h : takeOver cs o l m = .ok r) (c : Chunk) (j : Nat) (hm : (c, some j) ∈ r) : cs[j]? = some c := by
  cases m with
  | none =>
    simp only [takeOver] at h
    cases h1 : takeLoop l cs 0 o 0 with
    | error e => rw [h1] at h; simp at h
    | ok p =>
      obtain ⟨r', n⟩ := p
      rw [h1] at h
      injection h with h
      rw [← h] at hm
      rcases List.mem_append.mp hm with hm | hm
      · exact (takeLoop_alias l cs 0 o 0 r' n h1 c j hm).2
      · split at hm <;> simp at hm
  | some m =>
    simp only [takeOver] at h
    by_cases h0 : trueCount m = 0
    · rw [if_pos h0] at h; injection h with h; rw [← h] at hm; simp at hm
    · rw [if_neg h0] at h
      cases h1 : takeLoopIdx m cs 0 o 0 with
      | error e => rw [h1] at h; simp at h
      | ok p =>
        obtain ⟨r', n⟩ := p
        rw [h1] at h
        injection h with h
        rw [← h] at hm
        rcases List.mem_append.mp hm with hm | hm
        · have := takeLoopIdx_alias m cs 0 o 0 r' n h1 _ hm
          simp at this
        · split at hm <;> simp at hm

/-- Writing the objects back keeps the cells of the caller's list. -/
theorem writeBack_keeps (cs : List Chunk) : ∀ (t : List Taken) (ss : List Slot) (acc : List Chunk),
    (∀ c j, (c, some j) ∈ t → cs[j]? = some c) →
    List.Forall₂ (fun t s => Chunk.Keeps t.1 s.obj) t ss → List.Forall₂ Chunk.Keeps cs acc →
    List.Forall₂ Chunk.Keeps cs ((t.zip ss).foldl (fun acc p => match p.1.2 with
      | some i => acc.set i p.2.obj
      | none => acc) acc) := by
  intro t ss acc ha h
  induction h generalizing acc with
  | nil => intro hacc; exact hacc
  | @cons x s t ss hx _ ih =>
    intro hacc
    rw [List.zip_cons_cons, List.foldl_cons]
    apply ih
    · intro c j hm; exact ha c j (by simp [hm])
    · obtain ⟨c, a⟩ := x
      cases a with
      | none => exact hacc
      | some i =>
        simp only
        have := ha c i (by simp)
        rw [List.forall₂_iff_get] at hacc ⊢
        refine ⟨by simpa using hacc.1, fun j h1 h2 => ?_⟩
        simp only [List.get_eq_getElem, List.getElem_set]
        by_cases hij : i = j
        · subst hij
          rw [if_pos rfl]
          rw [List.getElem?_eq_getElem h1] at this
          injection this with this
          rw [this]; exact hx
        · rw [if_neg hij]
          exact hacc.2 j h1 (by rw [List.length_set] at h2; exact h2)

/-- Every chunk of the list holds its cells. -/
def Sound (cs : List Chunk) : Prop := ∀ c ∈ cs, ∃ k vs, c.Holds k vs

theorem Sound.column {cs : List Chunk} (h : Sound cs) : ∃ col, Column cs col := by
  induction cs with
  | nil => exact ⟨_, .nil⟩
  | cons c cs ih =>
    obtain ⟨col, hc⟩ := ih fun x hx => h x (by simp [hx])
    obtain ⟨k, vs, hv⟩ := h c (by simp)
    exact ⟨_, .cons hv hc⟩

theorem Column.sound {cs : List Chunk} {col} (h : Column cs col) : Sound cs := by
  induction h with
  | nil => intro c hc; simp at hc
  | cons h _ ih =>
    intro c hc
    rcases List.mem_cons.mp hc with rfl | hc
    · exact ⟨_, _, h⟩
    · exact ih c hc

theorem Sound.abs {cs : List Chunk} (h : Sound cs) : ∃ as, List.Forall₂ Abs cs as := by
  induction cs with
  | nil => exact ⟨[], .nil⟩
  | cons c cs ih =>
    obtain ⟨as, hs⟩ := ih fun x hx => h x (by simp [hx])
    obtain ⟨k, vs, hv⟩ := h c (by simp)
    obtain ⟨a, ha, _⟩ := hv.1.abs
    exact ⟨a :: as, .cons ha hs⟩

theorem takeOver_sound {cs : List Chunk} (h : Sound cs) (o l : Int) (m : Option (List Bool)) (r : List Taken)
    (hr : takeOver cs o l m = .ok r) : Sound (takenChunks r) := by
  have hs : List.Forall₂ SameCells cs cs := List.forall₂_same.mpr fun c hc => by
    obtain ⟨k, vs, hv⟩ := h c hc
    exact ⟨k, vs, hv, hv⟩
  rcases takeOver_same hs o l m with ⟨e, e1, _⟩ | ⟨t, t', e1, e2, ht⟩
  · rw [e1] at hr; simp at hr
  · rw [e1] at hr; injection hr with hr
    subst hr
    clear e1 e2
    induction ht with
    | nil => intro c hc; simp at hc
    | cons h _ ih =>
      intro c hc
      rcases List.mem_cons.mp hc with rfl | hc
      · obtain ⟨k, vs, h1, _⟩ := h.1
        exact ⟨k, vs, h1⟩
      · exact ih c hc

theorem lift_slots {cs : List Chunk} {as : List ACh} (h : List.Forall₂ Abs cs as) :
    List.Forall₂ (fun s a => Abs s.cur a) (cs.map fun c => (⟨c, none⟩ : Slot)) as := by
  induction h with
  | nil => exact .nil
  | cons h _ ih => exact .cons h ih

/-- After a call with a window the list holds the same cells, whatever the flags. -/
theorem concatenate_keeps_window (env : Env) (o : ConcatOpts) (cs : List Chunk) (h : Sound cs) (off len : Int)
    (m : Option (List Bool)) (hw : off ≠ 0 ∨ len ≠ 0 ∨ m.isSome) :
    List.Forall₂ Chunk.Keeps cs (concatenate env o cs off len m).1 := by
  have hself : List.Forall₂ Chunk.Keeps cs cs := List.forall₂_same.mpr fun c _ => .refl c
  unfold concatenate
  rw [if_pos hw]
  cases ht : takeOver cs off len m with
  | error e => exact hself
  | ok t =>
    simp only
    obtain ⟨as, has⟩ := (takeOver_sound h off len m t ht).abs
    have hl := lift_slots has
    rw [List.map_map] at hl
    obtain ⟨hk, _⟩ := concatSlots_abs env o _ as hl
    refine writeBack_keeps cs t _ cs (takeOver_alias cs off len m t ht) ?_ hself
    have e : (t.map ((fun c => (⟨c, none⟩ : Slot)) ∘ (·.1))) = t.map fun x => (⟨x.1, none⟩ : Slot) := rfl
    rw [e] at hk
    rw [List.forall₂_map_left_iff] at hk
    exact hk.imp fun x s h => h.obj

/-- After a call without conversions the list holds the same cells. -/
theorem concatenate_keeps_flags (env : Env) (o : ConcatOpts) (h1 : o.confDt = false) (h2 : o.confNum = false)
    (cs : List Chunk) (h : Sound cs) (off len : Int) (m : Option (List Bool)) :
    List.Forall₂ Chunk.Keeps cs (concatenate env o cs off len m).1 := by
  by_cases hw : off ≠ 0 ∨ len ≠ 0 ∨ m.isSome
  · exact concatenate_keeps_window env o cs h off len m hw
  · unfold concatenate
    rw [if_neg hw]
    simp only
    obtain ⟨as, has⟩ := h.abs
    have hl := lift_slots has
    have hk := (concatSlots_abs env o _ as hl).1
    have hn := concatSlots_norep env o h1 h2 (cs.map fun c => ⟨c, none⟩) (by simp)
    rw [List.forall₂_map_left_iff] at hk
    rw [List.forall₂_map_right_iff]
    generalize (concatSlots env o (cs.map fun c => ⟨c, none⟩)).1 = out at hk hn
    clear hl has h
    induction hk with
    | nil => exact .nil
    | @cons c s cs ss hx _ ih =>
      refine .cons ?_ (ih fun s hs => hn s (by simp [hs]))
      have := hn s (by simp)
      rw [Slot.cur, this]
      exact hx.obj

end Rxls
