import Mathlib.Data.Nat.Bitwise
import Verif.Model.ReadFile
import Verif.Lemmas.ConcatTop
import Verif.Spec.Options

/-! # Reads with different conversion options -/

namespace Rxls

/-! ## Classes kept by operations on chunks -/

theorem hasBit_pow (x i : Nat) : hasBit x (2 ^ i) = x.testBit i := by
  unfold hasBit
  rw [Nat.and_two_pow]
  cases x.testBit i <;> simp

theorem hasBit_prep (t : Nat) : hasBit (t ||| REPR_PREPARED) TYPE_STRING = hasBit t TYPE_STRING ∧
    hasBit (t ||| REPR_PREPARED) REPR_TEMPORAL = hasBit t REPR_TEMPORAL ∧ t ||| REPR_PREPARED ≠ 0 := by
  have h1 : TYPE_STRING = 2 ^ 4 := rfl
  have h2 : REPR_TEMPORAL = 2 ^ 2 := rfl
  have h3 : REPR_PREPARED = 2 ^ 3 := rfl
  refine ⟨?_, ?_, ?_⟩
  · rw [h1, h3, hasBit_pow, hasBit_pow, Nat.testBit_or, Nat.testBit_two_pow]; simp
  · rw [h2, h3, hasBit_pow, hasBit_pow, Nat.testBit_or, Nat.testBit_two_pow]; simp
  · intro h
    have : (t ||| REPR_PREPARED).testBit 3 = false := by rw [h]; simp
    rw [h3, Nat.testBit_or, Nat.testBit_two_pow] at this
    simp at this

theorem prepare_cls {c c' : Chunk} (hn : c.typ ≠ 0) (h : c.prepare = .ok c') : c'.cls = c.cls := by
  unfold Chunk.prepare at h
  split at h
  · injection h with h; rw [h]
  · split at h
    · rename_i hs
      split at h
      · cases hl : takeShared c.sref ‹_› with
        | error e => rw [hl] at h; cases h
        | ok s =>
          rw [hl] at h
          injection h with h
          subst h
          simp only [Chunk.cls, if_neg hn, hs, if_true]
          rfl
      · cases h
    · rename_i hs
      obtain ⟨b1, b2, b3⟩ := hasBit_prep c.typ
      have key : ∀ d, ({ c with data := d, typ := c.typ ||| REPR_PREPARED } : Chunk).cls = c.cls := by
        intro d
        simp only [Chunk.cls, if_neg hn, if_neg b3, b1, b2]
      simp only [bind, Except.bind] at h
      repeat' split at h
      all_goals first
        | cases h; done
        | (injection h with h; rw [← h]; exact key _)

/-- Chunks of one class, with gaps. -/
def OfCls (k : Cls) (c : Chunk) : Prop := c.cls = .null ∨ c.cls = k

theorem take_typ {c c' : Chunk} {ix : TakeIdx} (h : c.take ix = .ok c') : c'.typ = c.typ := by
  unfold Chunk.take at h
  split at h
  · split at h
    · cases hd : selectList PyErr.arrowInvalid ‹_› ix with
      | error e => rw [hd] at h; cases h
      | ok d => rw [hd] at h; injection h with h; rw [← h]
    · cases hd : selectList PyErr.arrowInvalid ‹_› ix with
      | error e => rw [hd] at h; cases h
      | ok d => rw [hd] at h; injection h with h; rw [← h]
    · cases h
  · split at h
    · rename_i h0
      split at h
      · injection h with h; rw [← h, h0]; rfl
      · injection h with h; rw [← h, h0]; rfl
      · split at h
        · cases h
        · injection h with h; rw [← h, h0]; rfl
    · split at h
      · cases hd : selectList PyErr.indexError ‹_› ix with
        | error e => rw [hd] at h; cases h
        | ok d => rw [hd] at h; injection h with h; rw [← h]
      · cases hd : selectList PyErr.indexError ‹_› ix with
        | error e => rw [hd] at h; cases h
        | ok d => rw [hd] at h; injection h with h; rw [← h]
      · cases hd : selectList PyErr.indexError ‹_› ix with
        | error e => rw [hd] at h; cases h
        | ok d => rw [hd] at h; injection h with h; rw [← h]
      · cases h

theorem ofCls_pred (k : Cls) : TakePred (OfCls k) where
  take := by
    intro c ix c' h e
    have := take_typ e
    unfold OfCls Chunk.cls at *
    rw [this]; exact h
  nulls := fun n => Or.inl rfl

/-- Entries that are the objects themselves. -/
def PlainSlots (k : Cls) (ss : List Slot) : Prop := ∀ s ∈ ss, s.rep = none ∧ OfCls k s.obj

theorem passSlots_plain {α : Type} {k : Cls} {f : Slot → Slot × Py α} {ss : List Slot}
    (hf : ∀ s, s.rep = none → OfCls k s.obj → (f s).1.rep = none ∧ OfCls k (f s).1.obj) (h : PlainSlots k ss) :
    PlainSlots k (passSlots f ss).1 := by
  induction ss with
  | nil => exact h
  | cons s ss ih =>
    have h1 := h s (by simp)
    have h2 : PlainSlots k ss := fun x hx => h x (by simp [hx])
    have h3 := hf s h1.1 h1.2
    have h4 := ih h2
    unfold passSlots
    cases hs : f s with
    | mk s' r =>
      rw [hs] at h3
      cases r with
      | error e =>
        intro x hx
        rcases List.mem_cons.mp hx with rfl | hx
        · exact h3
        · exact h2 x hx
      | ok a =>
        cases hp : passSlots f ss with
        | mk ss' r' =>
          rw [hp] at h4
          cases r' <;>
          · intro x hx
            rcases List.mem_cons.mp hx with rfl | hx
            · exact h3
            · exact h4 x hx

theorem stepArrow_plain {k : Cls} (env : Env) (dt : DType) (s : Slot) (h1 : s.rep = none) (h2 : OfCls k s.obj) :
    (stepArrow env dt s).1.rep = none ∧ OfCls k (stepArrow env dt s).1.obj := by
  obtain ⟨c, r⟩ := s
  cases h1
  simp only [stepArrow, Slot.cur, Option.getD_none, Slot.mutate, true_and]
  unfold Chunk.arrow
  split
  · split <;> exact h2
  · rename_i h0
    cases hp : c.prepare with
    | error e => exact h2
    | ok c' =>
      simp only
      unfold OfCls
      rw [prepare_cls h0 hp]
      exact h2

theorem intLoop_plain {k : Cls} (prec : Nat) {ss : List Slot} (h : PlainSlots k ss) : PlainSlots k (intLoop prec ss).1 := by
  induction ss with
  | nil => exact h
  | cons s ss ih =>
    have h1 := h s (by simp)
    have h2 : PlainSlots k ss := fun x hx => h x (by simp [hx])
    have h4 := ih h2
    have cons : ∀ (s : Slot) ss, (s.rep = none ∧ OfCls k s.obj) → PlainSlots k ss → PlainSlots k (s :: ss) := by
      intro s ss a b x hx
      rcases List.mem_cons.mp hx with rfl | hx
      · exact a
      · exact b x hx
    unfold intLoop
    split
    · exact cons _ _ h1 h4
    · rename_i h0
      obtain ⟨c, r⟩ := s
      obtain ⟨e1, e2⟩ := h1
      cases e1
      simp only [Slot.cur, Option.getD_none] at h0 ⊢
      cases hp : c.prepare with
      | error e => exact h
      | ok c' =>
        have hc : (⟨c', none⟩ : Slot).rep = none ∧ OfCls k (⟨c', none⟩ : Slot).obj := by
          refine ⟨rfl, ?_⟩
          unfold OfCls at *
          rw [prepare_cls h0 hp]; exact e2
        simp only [Slot.mutate]
        split
        · split
          · exact cons _ _ hc h4
          · exact cons _ _ hc h2
        · exact cons _ _ hc h2

/-! ## Chunks of one class: nothing is converted -/

theorem plain_any {k : Cls} {ss : List Slot} (h : PlainSlots k ss) {j : Cls} (h1 : j ≠ .null) (h2 : j ≠ k) :
    (ss.any fun s => s.cur.cls == j) = false := by
  rw [List.any_eq_false]
  intro s hs
  obtain ⟨a, b⟩ := h s hs
  have hc : s.cur = s.obj := by simp [Slot.cur, a]
  rw [hc]
  rcases b with b | b <;> rw [b]
  · intro hh; exact h1 (eq_of_beq hh).symm
  · intro hh; exact h2 (eq_of_beq hh).symm

theorem passSlots_id {f : Slot → Slot × Py Bool} {ss : List Slot} (h : ∀ s ∈ ss, f s = (s, .ok false)) :
    passSlots f ss = (ss, .ok (ss.map fun _ => false)) := by
  induction ss with
  | nil => rfl
  | cons s ss ih =>
    rw [passSlots, h s (by simp), ih fun x hx => h x (by simp [hx])]
    rfl

theorem any_map_false (ss : List Slot) : ((ss.map fun _ => false).any id) = false := by
  induction ss with
  | nil => rfl
  | cons s ss ih => simp

theorem convert_plain {k : Cls} (env : Env) (o : ConcatOpts) {ss : List Slot} (h : PlainSlots k ss) :
    convertPhase env o ss = (ss, .ok false) := by
  have cur : ∀ s ∈ ss, s.cur.cls = .null ∨ s.cur.cls = k := by
    intro s hs
    obtain ⟨a, b⟩ := h s hs
    have hc : s.cur = s.obj := by simp [Slot.cur, a]
    rw [hc]; exact b
  unfold convertPhase
  simp only
  by_cases ht : (ss.any fun s => s.cur.cls == .temp) = true
  · have hk : k = .temp := by
      by_contra hk
      rw [plain_any h (by simp) (fun e => hk e.symm)] at ht
      cases ht
    subst hk
    rw [if_pos ht, plain_any h (j := .nums) (by simp) (by simp), plain_any h (j := .utf8) (by simp) (by simp)]
    have e1 : passSlots (stepNumTemporal env) ss = (ss, .ok (ss.map fun _ => false)) := by
      apply passSlots_id
      intro s hs
      unfold stepNumTemporal
      rw [if_neg]
      rcases cur s hs with e | e <;> rw [e] <;> simp
    have e2 : passSlots (stepStrTemporal env o) ss = (ss, .ok (ss.map fun _ => false)) := by
      apply passSlots_id
      intro s hs
      unfold stepStrTemporal
      rw [if_neg]
      rcases cur s hs with e | e <;> rw [e] <;> simp
    simp only [e1, e2, any_map_false, Bool.or_false]
    split <;> rfl
  · rw [if_neg ht]
    have : ((ss.any fun s => s.cur.cls == .nums) && (ss.any fun s => s.cur.cls == .utf8)) = false := by
      by_cases hk : k = .nums
      · subst hk; rw [plain_any h (j := .utf8) (by simp) (by simp), Bool.and_false]
      · rw [plain_any h (j := .nums) (by simp) (fun e => hk e.symm), Bool.false_and]
    rw [this]
    rfl

theorem typePhase_plain {k : Cls} {o o' : ConcatOpts} (hp : o.prec = o'.prec ∨ k ≠ .nums) {ss : List Slot}
    (h : PlainSlots k ss) (hasT : Bool) :
    typePhase o hasT (ss.any fun s => s.cur.cls == .nums) false ss =
      typePhase o' hasT (ss.any fun s => s.cur.cls == .nums) false ss ∧
    PlainSlots k (typePhase o hasT (ss.any fun s => s.cur.cls == .nums) false ss).1 := by
  constructor
  · unfold typePhase
    rcases hp with hp | hp
    · rw [hp]
    · rw [plain_any h (j := .nums) (by simp) (fun e => hp e.symm)]
      rfl
  · unfold typePhase
    simp only [Bool.false_eq_true, if_false]
    split
    · exact h
    · split
      · have := intLoop_plain o.prec h
        revert this
        cases hi : intLoop o.prec ss with
        | mk ss' r => cases r <;> exact id
      · exact h

theorem concatSlots_plain {k : Cls} (env : Env) {o o' : ConcatOpts} (hp : o.prec = o'.prec ∨ k ≠ .nums) {ss : List Slot}
    (h : PlainSlots k ss) :
    concatSlots env o ss = concatSlots env o' ss ∧ PlainSlots k (concatSlots env o ss).1 := by
  obtain ⟨t1, t2⟩ := typePhase_plain hp h (ss.any fun s => s.cur.cls == .temp)
  unfold concatSlots
  simp only [convert_plain env o h, convert_plain env o' h, ← t1, true_and]
  cases ht : typePhase o (ss.any fun s => s.cur.cls == .temp) (ss.any fun s => s.cur.cls == .nums) false ss with
  | mk ss' r =>
    rw [ht] at t2
    cases r with
    | error e => exact t2
    | ok dt =>
      have h3 := passSlots_plain (f := stepArrow env dt) (fun s a b => stepArrow_plain env dt s a b) t2
      simp only
      cases hq : passSlots (stepArrow env dt) ss' with
      | mk ss'' r =>
        rw [hq] at h3
        cases r with
        | error e => exact h3
        | ok as => simp only; split <;> exact h3

theorem writeBack_all {P : Chunk → Prop} : ∀ (t : List Taken) (ss : List Slot) (acc : List Chunk), (∀ s ∈ ss, P s.obj) →
    (∀ c ∈ acc, P c) → ∀ c ∈ writeBack acc t ss, P c
  | [], _, _, _, h => by simpa [writeBack] using h
  | _ :: _, [], _, _, h => by simpa [writeBack] using h
  | x :: t, s :: ss, acc, hs, h => by
    have ih := writeBack_all (P := P) t ss
    unfold writeBack at ih ⊢
    rw [List.zip_cons_cons, List.foldl_cons]
    apply ih _ fun y hy => hs y (by simp [hy])
    intro c hc
    obtain ⟨d, a⟩ := x
    cases a with
    | none => exact h c hc
    | some i =>
      rcases List.mem_or_eq_of_mem_set hc with hc | rfl
      · exact h c hc
      · exact hs s (by simp)

theorem concatenate_plain {k : Cls} (env : Env) {o o' : ConcatOpts} (hp : o.prec = o'.prec ∨ k ≠ .nums) {cs : List Chunk}
    (h : ∀ c ∈ cs, OfCls k c) (off len : Int) (idx : Option (List Bool)) :
    concatenate env o cs off len idx = concatenate env o' cs off len idx ∧
    ∀ c ∈ (concatenate env o cs off len idx).1, OfCls k c := by
  unfold concatenate
  split
  · cases ht : takeOver cs off len idx with
    | error e => exact ⟨rfl, h⟩
    | ok taken =>
      have hp2 : PlainSlots k (taken.map fun t => (⟨t.1, none⟩ : Slot)) := by
        intro s hs
        obtain ⟨t, ht', rfl⟩ := List.mem_map.mp hs
        exact ⟨rfl, takeOver_pred (ofCls_pred k) h ht t.1 (by
          unfold takenChunks
          exact List.mem_map.mpr ⟨t, ht', rfl⟩)⟩
      obtain ⟨e1, e2⟩ := concatSlots_plain env hp hp2
      simp only [← e1, true_and]
      cases hc : concatSlots env o (taken.map fun t => (⟨t.1, none⟩ : Slot)) with
      | mk ss r =>
        rw [hc] at e2
        exact writeBack_all _ _ _ (fun s hs => (e2 s hs).2) h
  · have hp2 : PlainSlots k (cs.map fun c => (⟨c, none⟩ : Slot)) := by
      intro s hs
      obtain ⟨c, hc, rfl⟩ := List.mem_map.mp hs
      exact ⟨rfl, h c hc⟩
    obtain ⟨e1, e2⟩ := concatSlots_plain env hp hp2
    simp only [← e1, true_and]
    cases hc : concatSlots env o (cs.map fun c => (⟨c, none⟩ : Slot)) with
    | mk ss r =>
      rw [hc] at e2
      intro c hc
      obtain ⟨s, hs, rfl⟩ := List.mem_map.mp hc
      obtain ⟨a, b⟩ := e2 s hs
      have : s.cur = s.obj := by simp [Slot.cur, a]
      rw [this]; exact b

/-! ## Formats matter only for the conversion to moments -/

theorem concatenate_formats (env : Env) {o o' : ConcatOpts} (h1 : o.confDt = false) (h2 : o'.confDt = false)
    (h3 : o.confNum = o'.confNum) (h4 : o.prec = o'.prec) (cs : List Chunk) (off len : Int) (idx : Option (List Bool)) :
    concatenate env o cs off len idx = concatenate env o' cs off len idx := by
  have h : concatSlots env o = concatSlots env o' := by
    funext ss
    have e1 : convertPhase env o ss = convertPhase env o' ss := by
      unfold convertPhase
      simp [h1, h2, h3]
    have e2 : ∀ a b c ss, typePhase o a b c ss = typePhase o' a b c ss := by
      intro a b c ss
      unfold typePhase
      rw [h4]
    unfold concatSlots
    simp only [e1, e2]
  unfold concatenate
  rw [h]

/-! ## Whole reads -/

section Sim

variable (o' : ConcatOpts) (I : Int → Series → Prop)

/-- The same column with other options. -/
def Series.withOpts (s : Series) : Series := { s with opts := o' }

/-- The same columns with other options. -/
def colsWith (cols : Cols) : Cols := cols.map fun p => (p.1, p.2.withOpts o')

/-- All columns are as described. -/
def ColsOk (cols : Cols) : Prop := ∀ p ∈ cols, I p.1 p.2

/-- A method that does not tell the options apart. -/
def Blind {α : Type} (f : Series → Series × Py α) : Prop :=
  ∀ k s, I k s → f (s.withOpts o') = ((f s).1.withOpts o', (f s).2) ∧ I k (f s).1

/-- Results that differ in the options only. -/
inductive SimR {α : Type} : Py (Cols × α) → Py (Cols × α) → Prop
  | error (e : PyErr) : SimR (.error e) (.error e)
  | ok (c : Cols) (a : α) (h : ColsOk I c) : SimR (.ok (c, a)) (.ok (colsWith o' c, a))

variable {o' I}

theorem colsWith_find (cols : Cols) (k : Int) :
    (colsWith o' cols).find? (fun p => decide (p.1 = k)) =
      (cols.find? fun p => decide (p.1 = k)).map fun p => (p.1, p.2.withOpts o') := by
  unfold colsWith
  rw [List.find?_map]
  rfl

theorem colsWith_set (cols : Cols) (k : Int) (s : Series) :
    (colsWith o' cols).map (fun q => if q.1 = k then (q.1, s.withOpts o') else q) =
      colsWith o' (cols.map fun q => if q.1 = k then (q.1, s) else q) := by
  unfold colsWith
  rw [List.map_map, List.map_map]
  apply List.map_congr_left
  intro q _
  simp only [Function.comp]
  split <;> rfl

theorem ColsOk.set {cols : Cols} (h : ColsOk I cols) {k : Int} {s : Series} (hs : I k s) :
    ColsOk I (cols.map fun q => if q.1 = k then (q.1, s) else q) := by
  intro p hp
  obtain ⟨q, hq, rfl⟩ := List.mem_map.mp hp
  split
  · rename_i e; simp only; rw [e]; exact hs
  · exact h q hq

theorem onColumn_sim {α : Type} {f : Series → Series × Py α} (hf : Blind o' I f) {cols : Cols} (h : ColsOk I cols) (k : Int) :
    SimR o' I (onColumn cols k f) (onColumn (colsWith o' cols) k f) := by
  unfold onColumn
  rw [colsWith_find]
  cases hp : cols.find? (fun p => decide (p.1 = k)) with
  | none => exact .error _
  | some p =>
    have hk : p.1 = k := by simpa using List.find?_some hp
    have hI := h p (List.mem_of_find?_eq_some hp)
    obtain ⟨a, b⟩ := hf _ _ hI
    simp only [Option.map_some]
    rw [a]
    cases hr : f p.2 with
    | mk s r =>
      rw [hr] at b
      cases r with
      | error e => exact .error e
      | ok x =>
        simp only
        rw [colsWith_set]
        exact .ok _ _ (h.set (by rw [← hk]; exact b))

theorem onColumns_sim {α : Type} {f : Series → Series × Py α} (hf : Blind o' I f) : ∀ (ks : List Int) {cols : Cols},
    ColsOk I cols → SimR o' I (onColumns f cols ks) (onColumns f (colsWith o' cols) ks)
  | [], cols, h => .ok _ _ h
  | k :: ks, cols, h => by
    unfold onColumns
    have h1 := onColumn_sim hf h k
    generalize onColumn cols k f = x at h1 ⊢
    generalize onColumn (colsWith o' cols) k f = y at h1 ⊢
    cases h1 with
    | error e => exact .error e
    | ok c a hc =>
      have h2 := onColumns_sim hf ks hc
      simp only
      generalize onColumns f c ks = x at h2 ⊢
      generalize onColumns f (colsWith o' c) ks = y at h2 ⊢
      cases h2 with
      | error e => exact .error e
      | ok c a hc => exact .ok _ _ hc

theorem colsWith_keys (cols : Cols) : (colsWith o' cols).map (·.1) = cols.map (·.1) := by
  unfold colsWith
  rw [List.map_map]
  rfl

theorem colsWith_sorted (cols : Cols) : sortedKeys (colsWith o' cols) = sortedKeys cols := by
  unfold sortedKeys
  rw [colsWith_keys]

theorem colsWith_maxLen (cols : Cols) : maxLen (colsWith o' cols) = maxLen cols := by
  cases cols with
  | nil => rfl
  | cons p ps =>
    simp only [colsWith, List.map_cons, maxLen, List.foldl_map]
    rfl

theorem colsWith_length (cols : Cols) : (colsWith o' cols).length = cols.length := by simp [colsWith]

/-- Fetching a column does not tell the options apart. -/
def BlindArrow (o' : ConcatOpts) (I : Int → Series → Prop) (env : Env) : Prop :=
  ∀ off len idx, Blind o' I fun s => s.toArrow env off len idx

theorem textsOf_blind {env : Env} (h : BlindArrow o' I env) (off len : Int) : Blind o' I (textsOf env off len) := by
  intro k s hs
  obtain ⟨a, b⟩ := h off len none k s hs
  simp only at a b
  unfold textsOf Series.toUtf8
  rw [a]
  cases hr : s.toArrow env off len none with
  | mk s' r =>
    rw [hr] at b
    cases r with
    | error e => exact ⟨rfl, b⟩
    | ok x =>
      cases x with
      | nulls n => exact ⟨rfl, b⟩
      | arr x =>
        simp only
        cases castArr env .utf8 x with
        | error e => exact ⟨rfl, b⟩
        | ok y => exact ⟨rfl, b⟩

theorem firstText_blind {env : Env} (h : BlindArrow o' I env) (off : Int) : Blind o' I (firstText env off) := by
  intro k s hs
  obtain ⟨a, b⟩ := textsOf_blind h off 1 k s hs
  unfold firstText
  rw [a]
  cases hr : textsOf env off 1 s with
  | mk s' r =>
    rw [hr] at b
    cases r with
    | error e => exact ⟨rfl, b⟩
    | ok x => cases x <;> exact ⟨rfl, b⟩

theorem presence_blind {env : Env} (h : BlindArrow o' I env) (off len : Int) : Blind o' I (presence env off len) := by
  intro k s hs
  obtain ⟨a, b⟩ := h off len none k s hs
  simp only at a b
  unfold presence
  rw [a]
  cases hr : s.toArrow env off len none with
  | mk s' r =>
    rw [hr] at b
    cases r with
    | error e => exact ⟨rfl, b⟩
    | ok x => cases x <;> exact ⟨rfl, b⟩

theorem makeHeader_sim {env : Env} (h : BlindArrow o' I env) {cols : Cols} (hc : ColsOk I cols) (first len : Int) :
    SimR o' I (makeHeader env cols first len) (makeHeader env (colsWith o' cols) first len) := by
  unfold makeHeader
  rw [colsWith_sorted]
  split
  · have h1 := onColumns_sim (firstText_blind h first) (sortedKeys cols) hc
    generalize onColumns (firstText env first) cols _ = x at h1 ⊢
    generalize onColumns (firstText env first) (colsWith o' cols) _ = y at h1 ⊢
    cases h1 with
    | error e => exact .error e
    | ok c a hc => exact .ok _ _ hc
  · have h1 := onColumns_sim (textsOf_blind h first len) (sortedKeys cols) hc
    generalize onColumns (textsOf env first len) cols _ = x at h1 ⊢
    generalize onColumns (textsOf env first len) (colsWith o' cols) _ = y at h1 ⊢
    cases h1 with
    | error e => exact .error e
    | ok c a hc => exact .ok _ _ hc

theorem findPattern_sim {env : Env} (h : BlindArrow o' I env) (search : Str → Bool) (size : Int) : ∀ (ks : List Int) {cols : Cols},
    ColsOk I cols → SimR o' I (findPattern env search size cols ks) (findPattern env search size (colsWith o' cols) ks)
  | [], cols, hc => .ok _ _ hc
  | k :: ks, cols, hc => by
    unfold findPattern
    have h1 := onColumn_sim (textsOf_blind h 0 size) hc k
    generalize onColumn cols k _ = x at h1 ⊢
    generalize onColumn (colsWith o' cols) k _ = y at h1 ⊢
    cases h1 with
    | error e => exact .error e
    | ok c a hc =>
      simp only
      split
      · exact findPattern_sim h search size ks hc
      · exact .ok _ _ hc

theorem findHeader_sim {env : Env} (h : BlindArrow o' I env) (search : Str → Option (Str → Bool)) (size : Int) (l : Lookup)
    {cols : Cols} (hc : ColsOk I cols) :
    SimR o' I (findHeader env search cols size l) (findHeader env search (colsWith o' cols) size l) := by
  cases l with
  | none => exact .ok _ _ hc
  | column k =>
    unfold findHeader
    have h1 := onColumn_sim (textsOf_blind h 0 size) hc k
    simp only
    generalize onColumn cols k _ = x at h1 ⊢
    generalize onColumn (colsWith o' cols) k _ = y at h1 ⊢
    cases h1 with
    | error e => exact .error e
    | ok c a hc =>
      simp only
      split <;> exact .ok _ _ hc
  | pattern p =>
    unfold findHeader
    simp only
    cases search p with
    | none => exact .error _
    | some f =>
      rw [colsWith_keys]
      exact findPattern_sim h f size _ hc

theorem headerOf_sim {env : Env} (h : BlindArrow o' I env) (first : Int) (a : HeaderArg) {cols : Cols} (hc : ColsOk I cols) :
    SimR o' I (headerOf env cols first a) (headerOf env (colsWith o' cols) first a) := by
  cases a with
  | rows n =>
    unfold headerOf
    simp only
    split
    · have h1 := makeHeader_sim h hc first n
      generalize makeHeader env cols first n = x at h1 ⊢
      generalize makeHeader env (colsWith o' cols) first n = y at h1 ⊢
      cases h1 with
      | error e => exact .error e
      | ok c a hc => exact .ok _ _ hc
    · rw [colsWith_length]; exact .ok _ _ hc
  | names l =>
    unfold headerOf
    simp only
    rw [colsWith_length]
    split
    · exact .error _
    · exact .ok _ _ hc

theorem rowMask_sim {env : Env} (h : BlindArrow o' I env) (filters : List Int) (st : Strategy) (off len : Int) {cols : Cols}
    (hc : ColsOk I cols) :
    SimR o' I (rowMask env cols filters st off len) (rowMask env (colsWith o' cols) filters st off len) := by
  unfold rowMask
  split
  · exact .ok _ _ hc
  · have h1 := onColumns_sim (presence_blind h off len) filters hc
    generalize onColumns (presence env off len) cols filters = x at h1 ⊢
    generalize onColumns (presence env off len) (colsWith o' cols) filters = y at h1 ⊢
    cases h1 with
    | error e => exact .error e
    | ok c a hc =>
      simp only
      cases combineFilters st a with
      | error e => exact .error e
      | ok m =>
        simp only
        split
        · exact .error _
        · exact .ok _ _ hc

theorem readColumns_blind {A D : Type} {env : Env} (h : BlindArrow o' I env) (lib : Lib A D)
    (search : Str → Option (Str → Bool)) (reMatch : Str → Str → Py Bool) (args : ReadArgs D) {cols : Cols}
    (hc : ColsOk I cols) :
    readColumns env lib search reMatch args (colsWith o' cols) = readColumns env lib search reMatch args cols := by
  unfold readColumns
  rw [colsWith_maxLen]
  cases maxLen cols with
  | error e => rfl
  | ok n =>
    simp only
    have h1 := findHeader_sim h search args.lookupSize args.lookup hc
    generalize findHeader env search cols _ _ = x at h1 ⊢
    generalize findHeader env search (colsWith o' cols) _ _ = y at h1 ⊢
    cases h1 with
    | error e => rfl
    | ok c first hc =>
      simp only
      split
      · rfl
      · have h2 := headerOf_sim h first args.header hc
        generalize headerOf env c _ _ = x at h2 ⊢
        generalize headerOf env (colsWith o' c) _ _ = y at h2 ⊢
        cases h2 with
        | error e => rfl
        | ok c a hc =>
          simp only [colsWith_sorted]
          cases filterKeys reMatch a.2 (sortedKeys c) args.filters with
          | error e => rfl
          | ok filters =>
            simp only
            have h3 := rowMask_sim h filters args.strategy (a.1 + first + args.skipAfter)
              (n - first - a.1 - args.skipAfter) hc
            generalize rowMask env c _ _ _ _ = x at h3 ⊢
            generalize rowMask env (colsWith o' c) _ _ _ _ = y at h3 ⊢
            cases h3 with
            | error e => rfl
            | ok c m hc =>
              simp only [colsWith_sorted]
              have h4 := onColumns_sim (f := fetchWith env (a.1 + first + args.skipAfter)
                (n - first - a.1 - args.skipAfter) m) (h _ _ m) (sortedKeys c) hc
              generalize onColumns _ c _ = x at h4 ⊢
              generalize onColumns _ (colsWith o' c) _ = y at h4 ⊢
              cases h4 <;> rfl

theorem flush_with (env : Env) (s : Series) : (s.withOpts o').flush env = (s.flush env).map (Series.withOpts o') := by
  unfold Series.flush Series.pull
  show (if s.cur.isEmpty then _ else _) = _
  split
  · rfl
  · show (match makeChunk env s.binary s.shared s.xdtr s.cur with | .error e => _ | .ok c => _) = _
    cases makeChunk env s.binary s.shared s.xdtr s.cur <;> rfl

theorem add_with (env : Env) (s : Series) (c : Cell) : (s.withOpts o').add env c = (s.add env c).map (Series.withOpts o') := by
  unfold Series.add
  show (if (c.row : Int) ≤ s.eRow then _ else _) = _
  split
  · rfl
  · have e1 : (s.withOpts o').gap env c.row = (s.gap env c.row).map (Series.withOpts o') := by
      unfold Series.gap
      show (if (c.row : Int) > s.eRow + 1 then _ else _) = _
      split
      · rw [flush_with]
        cases s.flush env <;> rfl
      · rfl
    rw [e1]
    cases s.gap env c.row with
    | error e => rfl
    | ok s =>
      have e2 : (s.withOpts o').retype env c.xdt = (s.retype env c.xdt).map (Series.withOpts o') := by
        unfold Series.retype
        show (if c.xdt ≠ s.xdtr then _ else _) = _
        split
        · rw [flush_with]
          cases s.flush env <;> rfl
        · rfl
      simp only [Except.map]
      rw [e2]
      cases s.retype env c.xdt <;> rfl

theorem collect_blind {env : Env} {fresh : Series} (hf : ∀ k, I k fresh) : ∀ (cells : List Cell) {cols : Cols},
    (∀ c ∈ cells, ∀ s s', I c.col s → s.add env c = .ok s' → I c.col s') → ColsOk I cols →
    (∃ e, collect env fresh cols cells = .error e ∧ collect env (fresh.withOpts o') (colsWith o' cols) cells = .error e) ∨
    ∃ r, collect env fresh cols cells = .ok r ∧ collect env (fresh.withOpts o') (colsWith o' cols) cells = .ok (colsWith o' r) ∧
      ColsOk I r
  | [], cols, _, hc => Or.inr ⟨cols, rfl, rfl, hc⟩
  | c :: cs, cols, ha, hc => by
    have hadd := ha c (by simp)
    unfold collect addCell
    rw [colsWith_find]
    cases hp : cols.find? (fun p => decide (p.1 = c.col)) with
    | none =>
      simp only [Option.map_none]
      rw [add_with]
      cases hs : fresh.add env c with
      | error e => exact Or.inl ⟨e, rfl, rfl⟩
      | ok s =>
        simp only [Except.map]
        have e : colsWith o' cols ++ [(c.col, s.withOpts o')] = colsWith o' (cols ++ [(c.col, s)]) := by
          simp [colsWith]
        rw [e]
        refine collect_blind hf cs (fun x hx => ha x (by simp [hx])) ?_
        intro p hp
        rcases List.mem_append.mp hp with hp | hp
        · exact hc p hp
        · rw [List.mem_singleton] at hp; subst hp; exact hadd fresh s (hf _) hs
    | some p =>
      have hk : p.1 = c.col := by simpa using List.find?_some hp
      have hI := hc p (List.mem_of_find?_eq_some hp)
      simp only [Option.map_some]
      rw [add_with]
      cases hs : p.2.add env c with
      | error e => exact Or.inl ⟨e, rfl, rfl⟩
      | ok s =>
        simp only [Except.map]
        rw [colsWith_set]
        exact collect_blind hf cs (fun x hx => ha x (by simp [hx])) (hc.set (hadd p.2 s (by rw [← hk]; exact hI) hs))

/-- A read whose columns do not tell the options apart. -/
theorem readCells_blind {A D : Type} {env : Env} (h : BlindArrow o' I env) (lib : Lib A D)
    (search : Str → Option (Str → Bool)) (reMatch : Str → Str → Py Bool) (args : ReadArgs D) {fresh : Series}
    {cells : List Cell} (hf : ∀ k, I k fresh)
    (ha : ∀ c ∈ cells, ∀ s s', I c.col s → s.add env c = .ok s' → I c.col s') :
    readCells env lib search reMatch args (fresh.withOpts o') cells = readCells env lib search reMatch args fresh cells := by
  unfold readCells
  rcases collect_blind (o' := o') hf cells (cols := []) ha (by intro p hp; cases hp) with ⟨e, h1, h2⟩ | ⟨r, h1, h2, h3⟩
  · have h2' : collect env (fresh.withOpts o') [] cells = .error e := h2
    rw [h1, h2']
  · have h2' : collect env (fresh.withOpts o') [] cells = .ok (colsWith o' r) := h2
    rw [h1, h2']
    exact readColumns_blind h lib search reMatch args h3

end Sim

end Rxls
