import Verif.Lemmas.SharedDates
import Verif.Spec.History

/-! # Readings of a column, one after the other -/

namespace Rxls

/-- The chunk of run `j` is a run of references if and only if `raw j`. -/
def RawIs (raw : Nat → Prop) (j : Nat) (c : Chunk) : Prop := c.typ = 0 ∨ (¬ c.Resolved ↔ raw j)

theorem take_raw {c c' : Chunk} {ix} (e : c.take ix = .ok c') :
    c'.typ = 0 ∧ c.typ = 0 ∨ (c'.Resolved ↔ c.Resolved) := by
  unfold Chunk.take at e
  split at e
  · right
    cases hd : c.data with
    | strs l =>
      rw [hd] at e
      simp only [bind, Except.bind] at e
      cases h1 : selectList .arrowInvalid l ix with
      | error e2 => rw [h1] at e; simp at e
      | ok d =>
        rw [h1] at e; injection e with e; subst e
        constructor <;> intro _ x <;> simp [hd]
    | idx l =>
      rw [hd] at e
      simp only [bind, Except.bind] at e
      cases h1 : selectList .arrowInvalid l ix with
      | error e2 => rw [h1] at e; simp at e
      | ok d =>
        rw [h1] at e; injection e with e; subst e
        exact ⟨fun h => absurd rfl (h d), fun h => absurd hd (h l)⟩
    | _ => rw [hd] at e; simp at e
  · split at e
    · left
      refine ⟨?_, by assumption⟩
      cases ix with
      | «at» i => injection e with e; subst e; rfl
      | slice s => injection e with e; subst e; rfl
      | mask m =>
        simp only at e
        split at e
        · simp at e
        · injection e with e; subst e; rfl
    · right
      have key : ∀ {α : Type} (l : List α) (f : List α → Data), (∀ d x, f d ≠ .idx x) → c.data = f l →
          ((selectList .indexError l ix).bind fun d => .ok ⟨f d, c.typ, d.length, c.sref⟩) = (.ok c' : Py Chunk) →
          (c'.Resolved ↔ c.Resolved) := by
        intro α l f hf hd e
        cases h1 : selectList .indexError l ix with
        | error e2 => rw [h1] at e; simp [Except.bind] at e
        | ok d =>
          rw [h1] at e
          simp only [Except.bind] at e
          injection e with e; subst e
          refine ⟨fun _ x => ?_, fun _ x => ?_⟩
          · rw [hd]; exact hf _ _
          · exact hf _ _
      cases hd : c.data with
      | u32 l => rw [hd] at e; exact key l .u32 (by simp) hd e
      | f8 l => rw [hd] at e; exact key l .f8 (by simp) hd e
      | i8 l => rw [hd] at e; exact key l .i8 (by simp) hd e
      | _ => rw [hd] at e; simp at e

theorem rawIs_pred (raw : Nat → Prop) (j : Nat) : TakePred (RawIs raw j) where
  take c ix c' h e := by
    rcases take_raw e with ⟨h1, _⟩ | h1
    · exact .inl h1
    · rcases h with h | h
      · left
        unfold Chunk.take at e
        rw [if_neg (by rw [h]; decide), if_pos h] at e
        cases ix with
        | «at» i => injection e with e; subst e; rfl
        | slice s => injection e with e; subst e; rfl
        | mask m =>
          simp only at e
          split at e
          · simp at e
          · injection e with e; subst e; rfl
      · right; rw [h1]; exact h
  nulls n := .inl rfl

/-! ## Picked rows with references -/

theorem Abs.typ_null {c : Chunk} {a : ACh} (h : Abs c a) : c.typ = 0 ↔ a.cls = .null := h.typ_zero

theorem raw_iff {c : Chunk} {a : ACh} (h : Abs c a) : ¬ c.Resolved ↔ ∃ l, a = .str l true := by
  constructor
  · intro hr
    by_contra hn
    exact hr (notRaw.resolved h fun l e => hn ⟨l, e⟩)
  · rintro ⟨l, rfl⟩ hr
    exact Resolved.notRaw hr h l rfl

/-- There is a run of references if and only if a row belongs to one. -/
theorem Tagged.raw_row {raw : Nat → Prop} {b : Nat} {cs rows} (h : Tagged (RawIs raw) b cs rows) {as : List ACh}
    (ha : List.Forall₂ Abs cs as) (hs : ∀ c ∈ cs, c.size ≠ 0) :
    (∃ l, ACh.str l true ∈ as) ↔ ∃ j v, some (j, v) ∈ rows ∧ raw j := by
  induction h generalizing as with
  | nil => cases ha; simp
  | @cons b c cs k vs j rest h1 _ hp _ ih =>
    cases ha with
    | @cons _ a _ as g1 g2 =>
      have ih := ih g2 fun c hc => hs c (by simp [hc])
      obtain ⟨a', ha', hk, hv⟩ := h1.1.abs
      have := ha'.unique g1
      subst this
      have hne : vs ≠ [] := by
        rintro rfl
        exact hs c (by simp) h1.2
      have hhead : (∃ l, a' = .str l true) ↔ ∃ i v, some (i, v) ∈ inRun k j vs ∧ raw i := by
        rw [← raw_iff g1]
        constructor
        · intro hr
          obtain ⟨l, rfl⟩ := (raw_iff g1).mp hr
          have hk' : k ≠ .null := by rw [← hk]; simp [ACh.cls]
          obtain ⟨v, vs', rfl⟩ := List.exists_cons_of_ne_nil hne
          refine ⟨j, v, mem_inRun.mpr ⟨hk', rfl, by simp⟩, ?_⟩
          rcases hp with hp | hp
          · rw [g1.typ_zero] at hp; simp [ACh.cls] at hp
          · exact hp.mp hr
        · rintro ⟨i, v, hm, hr⟩
          obtain ⟨hk', rfl, _⟩ := mem_inRun.mp hm
          rcases hp with hp | hp
          · rw [g1.typ_zero, hk] at hp; exact absurd hp hk'
          · exact hp.mpr hr
      constructor
      · rintro ⟨l, hl⟩
        rcases List.mem_cons.mp hl with e | hl
        · obtain ⟨i, v, hm, hr⟩ := hhead.mp ⟨l, e.symm⟩
          exact ⟨i, v, List.mem_append_left _ hm, hr⟩
        · obtain ⟨i, v, hm, hr⟩ := ih.mp ⟨l, hl⟩
          exact ⟨i, v, List.mem_append_right _ hm, hr⟩
      · rintro ⟨i, v, hm, hr⟩
        rcases List.mem_append.mp hm with hm | hm
        · obtain ⟨l, e⟩ := hhead.mpr ⟨i, v, hm, hr⟩
          exact ⟨l, by rw [← e]; simp⟩
        · obtain ⟨l, hl⟩ := ih.mpr ⟨i, v, hm, hr⟩
          exact ⟨l, by simp [hl]⟩

/-- A reading of a column: an exception if there are moments and references, else the array. -/
theorem concatenate_raw (env : Env) (o : ConcatOpts) {raw : Nat → Prop} {cs : List Chunk}
    {rows : List (Option (Nat × Option Val))} {b : Nat} (h : Tagged (RawIs raw) b cs rows) (off len : Nat)
    (m : Option (List Bool)) (hm : SomeRow len m) :
    ((o.confDt = true ∧ (heldCells (pickRows rows off len m)).any isTs = true ∧
        ∃ j v, some (j, v) ∈ pickRows rows off len m ∧ raw j) →
      (concatenate env o cs off len m).2 = .error .arrowNotImplemented) ∧
    (¬ (o.confDt = true ∧ (heldCells (pickRows rows off len m)).any isTs = true ∧
        ∃ j v, some (j, v) ∈ pickRows rows off len m ∧ raw j) →
      (concatenate env o cs off len m).2 = .ok (fetchedHeld env o (pickRows rows off len m))) := by
  obtain ⟨t, ht0, hc⟩ := takeOver_tagged (rawIs_pred raw) h off len m (by rintro rfl; exact hm)
  have hw : (off : Int) ≠ 0 ∨ (len : Int) ≠ 0 ∨ m.isSome := by
    cases m with
    | none => exact .inr (.inl (by have : 0 < len := hm; omega))
    | some m => exact .inr (.inr rfl)
  obtain ⟨rs, hrs, hcells⟩ := hc.column.runs
  obtain ⟨as, ha, har, e⟩ := concatenate_taken env o hw ht0 hrs
  have hat := hc.atag ha
  have hsz := takeOver_size ht0
  have hflat : as.flatMap ACh.cells = heldCells (pickRows rows off len m) := by rw [← hcells, ← har, runs_cells]
  have hrow := hc.raw_row ha hsz
  have hne : as ≠ [] := by
    rintro rfl
    have hl := congrArg List.length hflat
    simp only [heldCells, List.length_map, pickRows_length] at hl
    cases m with
    | none => simp at hl; have : 0 < len := hm; omega
    | some m => simp at hl; exact hm (by omega)
  have hsome : ∀ a ∈ as, a.cells ≠ [] := by
    intro a hmem
    have hh : ∀ (c : List Chunk) (rs : Runs) (as : List ACh), HoldsRuns c rs → List.Forall₂ Abs c as →
        as.map ACh.run = rs → (∀ x ∈ c, x.size ≠ 0) → ∀ a ∈ as, a.cells ≠ [] := by
      intro c rs as h1 h2 h3 h4
      induction h2 generalizing rs with
      | nil => simp
      | @cons x a c as hxa _ ih =>
        subst h3
        cases h1 with
        | cons hx hrest =>
          intro b hb
          rcases List.mem_cons.mp hb with rfl | hb
          · intro h0
            have := hx.2
            simp only [ACh.run, h0, List.length_nil] at this
            exact h4 x (by simp) this
          · exact ih _ hrest rfl (fun y hy => h4 y (by simp [hy])) b hb
    exact hh _ _ _ hrs ha har hsz a hmem
  rw [e]
  constructor
  · rintro ⟨hd, hts, hex⟩
    refine aConcat_raw env o as hd ?_ (hrow.mpr hex)
    rw [← hflat, List.any_eq_true] at hts
    obtain ⟨v, hv, hts⟩ := hts
    obtain ⟨a, ha, hva⟩ := List.mem_flatMap.mp hv
    refine List.any_eq_true.mpr ⟨a, ha, ?_⟩
    cases a with
    | tmp l => rfl
    | nul n => simp [ACh.cells] at hva; rw [hva.2] at hts; simp [isTs] at hts
    | str l r =>
      simp only [ACh.cells, List.mem_map] at hva
      obtain ⟨x, _, rfl⟩ := hva
      cases x <;> simp [isTs] at hts
    | num l =>
      simp only [ACh.cells, List.mem_map] at hva
      obtain ⟨x, _, rfl⟩ := hva
      simp [isTs] at hts
  · intro hno
    refine aConcat_runs env o hat hne hsome ?_
    rintro hd hts a hmem l rfl
    exact hno ⟨hd, hts, hrow.mp ⟨l, hmem⟩⟩

/-! ## Which runs are looked up by a reading -/

/-- First row of a chunk. -/
def startOf (cs : List Chunk) (i : Nat) : Nat := ((cs.take i).map Chunk.size).sum

theorem startOf_succ (c : Chunk) (cs : List Chunk) (i : Nat) : startOf (c :: cs) (i + 1) = c.size + startOf cs i := by
  simp [startOf]

theorem takeLoop_covers (length : Int) (hl : 0 < length) : ∀ (cs : List Chunk) (i : Nat) (offset cum : Int)
    (r : List Taken) (n : Int), Sound cs → (∀ c ∈ cs, c.size ≠ 0) → 0 ≤ cum → cum < length →
    takeLoop length cs i offset cum = .ok (r, n) → ∀ k c, cs[k]? = some c →
    ((∃ x, (x, some (i + k)) ∈ r) ↔
      offset ≤ startOf cs k ∧ cum + startOf cs k + c.size - max offset 0 ≤ length)
  | [], i, offset, cum, r, n, _, _, _, _, _, k, c, hk => by simp at hk
  | d :: cs, i, offset, cum, r, n, hs, hz, h0, h1, e, k, c, hk => by
    have hs' : Sound cs := fun x hx => hs x (by simp [hx])
    have hz' : ∀ c ∈ cs, c.size ≠ 0 := fun x hx => hz x (by simp [hx])
    obtain ⟨kd, vd, hd⟩ := hs d (by simp)
    have hdz := hz d (by simp)
    have lift : ∀ (o' cum' : Int) (r' : List Taken) (n' : Int), 0 ≤ cum' → cum' < length →
        takeLoop length cs (i + 1) o' cum' = .ok (r', n') → ∀ k c, cs[k]? = some c →
        ((∃ x, (x, some (i + (k + 1))) ∈ r') ↔
          o' ≤ startOf cs k ∧ cum' + startOf cs k + c.size - max o' 0 ≤ length) := by
      intro o' cum' r' n' g0 g1 ge k c hk
      have := takeLoop_covers length hl cs (i + 1) o' cum' r' n' hs' hz' g0 g1 ge k c hk
      rw [show i + (k + 1) = i + 1 + k by omega]
      exact this
    have low : ∀ (o' cum' : Int) (r' : List Taken) (n' : Int),
        takeLoop length cs (i + 1) o' cum' = .ok (r', n') → ∀ x, (x, some i) ∉ r' := by
      intro o' cum' r' n' ge x hx
      have := (takeLoop_alias length cs (i + 1) o' cum' r' n' ge x i hx).1
      omega
    rw [takeLoop] at e
    by_cases hskip : 0 < offset ∧ (d.size : Int) ≤ offset
    · rw [if_pos hskip] at e
      cases k with
      | zero =>
        simp only [startOf, List.take_zero, List.map_nil, List.sum_nil, Nat.add_zero]
        constructor
        · rintro ⟨x, hx⟩; exact absurd hx (low _ _ _ _ e x)
        · rintro ⟨h, _⟩; omega
      | succ k =>
        rw [List.getElem?_cons_succ] at hk
        rw [lift _ _ _ _ h0 h1 e k c hk, startOf_succ]
        push_cast
        constructor <;> rintro ⟨g1, g2⟩ <;> constructor <;> omega
    · rw [if_neg hskip] at e
      obtain ⟨t1, e1, hh1⟩ := cutTop_spec d kd vd hd i offset
      obtain ⟨t2, e2, hh2⟩ := cutBottom_spec t1 kd _ hh1 length cum h1 hl
      simp only [e1, e2] at e
      have hsz1 : (t1.1.size : Int) = d.size - max offset 0 := by
        rw [hh1.2, List.length_drop, ← hd.2]
        omega
      have ht1 : (t1.2 = if 0 < offset then none else some i) ∧ (¬ 0 < offset → t1.1 = d) := by
        unfold cutTop at e1
        by_cases ho : 0 < offset
        · rw [if_pos ho] at e1
          cases hk : d.take (.slice ⟨some offset, none, none⟩) with
          | ok c => rw [hk] at e1; injection e1 with e1; subst e1; simp [ho]
          | error x => rw [hk] at e1; simp at e1
        · rw [if_neg ho] at e1; injection e1 with e1; subst e1; simp [ho]
      have ht2 : (length < cum + t1.1.size → t2.2 = none) ∧ (¬ length < cum + t1.1.size → t2 = t1) := by
        unfold cutBottom at e2
        by_cases ho : length ≠ 0 ∧ length < cum + t1.1.size
        · rw [if_pos ho] at e2
          refine ⟨fun _ => ?_, fun h => absurd ho.2 h⟩
          cases hk : t1.1.take (.slice ⟨none, some (t1.1.size + length - (cum + t1.1.size)), none⟩) with
          | ok c => rw [hk] at e2; injection e2 with e2; subst e2; rfl
          | error x => rw [hk] at e2; simp at e2
        · rw [if_neg ho] at e2
          injection e2 with e2
          exact ⟨fun h => absurd ⟨by omega, h⟩ ho, fun _ => e2.symm⟩
      have hkeep : (∃ x, (x, some i) ∈ keepTaken t2) ↔ offset ≤ 0 ∧ cum + d.size ≤ length := by
        unfold keepTaken
        constructor
        · rintro ⟨x, hx⟩
          split at hx
          · rw [List.mem_singleton] at hx
            have h2 : t2.2 = some i := by rw [← hx]
            have hl2 : ¬ length < cum + t1.1.size := fun h => by rw [ht2.1 h] at h2; simp at h2
            rw [ht2.2 hl2, ht1.1] at h2
            split at h2
            · simp at h2
            · constructor <;> omega
          · simp at hx
        · rintro ⟨g1, g2⟩
          have ho : ¬ 0 < offset := by omega
          have e3 := ht2.2 (by omega)
          have e4 := ht1.2 ho
          have e5 := ht1.1
          rw [if_neg ho] at e5
          rw [e3, e4, if_pos hdz]
          exact ⟨d, by rw [List.mem_singleton, ← e4, ← e5]⟩
      have hkeep' : ∀ j, j ≠ i → ∀ x, (x, some j) ∉ keepTaken t2 := by
        intro j hj x hx
        unfold keepTaken at hx
        split at hx
        · rw [List.mem_singleton] at hx
          have h2 : t2.2 = some j := by rw [← hx]
          have hl2 : ¬ length < cum + t1.1.size := fun h => by rw [ht2.1 h] at h2; simp at h2
          rw [ht2.2 hl2, ht1.1] at h2
          split at h2
          · simp at h2
          · injection h2 with h2; exact hj h2.symm
        · simp at hx
      have hstart : startOf (d :: cs) 0 = 0 := by simp [startOf]
      by_cases hend : length ≤ cum + t1.1.size
      · rw [if_pos hend] at e
        injection e with e; injection e with e _
        subst e
        cases k with
        | zero =>
          rw [List.getElem?_cons_zero] at hk
          injection hk with hk
          subst hk
          rw [Nat.add_zero, hkeep, hstart]
          push_cast
          constructor <;> rintro ⟨g1, g2⟩ <;> constructor <;> omega
        | succ k =>
          rw [List.getElem?_cons_succ] at hk
          have hcz := hz' c (List.mem_of_getElem? hk)
          rw [startOf_succ]
          constructor
          · rintro ⟨x, hx⟩; exact absurd hx (hkeep' _ (by omega) x)
          · rintro ⟨g1, g2⟩
            push_cast at g2
            omega
      · rw [if_neg hend] at e
        cases h3 : takeLoop length cs (i + 1) (if 0 < offset then 0 else offset) (cum + t1.1.size) with
        | error x => rw [h3] at e; simp at e
        | ok p =>
          obtain ⟨r', n'⟩ := p
          rw [h3] at e
          simp only at e
          injection e with e; injection e with e _
          subst e
          cases k with
          | zero =>
            rw [List.getElem?_cons_zero] at hk
            injection hk with hk
            subst hk
            rw [Nat.add_zero, hstart]
            have : (∃ x, (x, some i) ∈ keepTaken t2 ++ r') ↔ ∃ x, (x, some i) ∈ keepTaken t2 := by
              constructor
              · rintro ⟨x, hx⟩
                rcases List.mem_append.mp hx with hx | hx
                · exact ⟨x, hx⟩
                · exact absurd hx (low _ _ _ _ h3 x)
              · rintro ⟨x, hx⟩; exact ⟨x, List.mem_append_left _ hx⟩
            rw [this, hkeep]
            push_cast
            constructor <;> rintro ⟨g1, g2⟩ <;> constructor <;> omega
          | succ k =>
            rw [List.getElem?_cons_succ] at hk
            have : (∃ x, (x, some (i + (k + 1))) ∈ keepTaken t2 ++ r') ↔ ∃ x, (x, some (i + (k + 1))) ∈ r' := by
              constructor
              · rintro ⟨x, hx⟩
                rcases List.mem_append.mp hx with hx | hx
                · exact absurd hx (hkeep' _ (by omega) x)
                · exact ⟨x, hx⟩
              · rintro ⟨x, hx⟩; exact ⟨x, List.mem_append_right _ hx⟩
            rw [this, lift _ _ _ _ (by omega) (by omega) h3 k c hk, startOf_succ]
            push_cast
            split <;> constructor <;> rintro ⟨g1, g2⟩ <;> constructor <;> omega

/-- Which entries are written back. -/
theorem writeBack_at : ∀ (t : List Taken) (ss : List Slot) (acc : List Chunk), t.length = ss.length →
    (∀ s ∈ ss, s.obj.Resolved) → ∀ (i : Nat) (c' : Chunk), (writeBack acc t ss)[i]? = some c' →
    ((∃ x, (x, some i) ∈ t) → c'.Resolved) ∧ ((¬ ∃ x, (x, some i) ∈ t) → acc[i]? = some c')
  | [], ss, acc, _, _, i, c', e => ⟨by simp, fun _ => by simpa [writeBack] using e⟩
  | x :: t, [], acc, h, _, _, _, _ => by simp at h
  | (x, none) :: t, s :: ss, acc, h, hr, i, c', e => by
    have ih := writeBack_at t ss acc (by simpa using h) (fun s hs => hr s (by simp [hs])) i c' e
    simpa using ih
  | (x, some k) :: t, s :: ss, acc, h, hr, i, c', e => by
    have ih := writeBack_at t ss (acc.set k s.obj) (by simpa using h) (fun s hs => hr s (by simp [hs])) i c' e
    constructor
    · rintro ⟨y, hy⟩
      by_cases ht : ∃ x, (x, some i) ∈ t
      · exact ih.1 ht
      · rcases List.mem_cons.mp hy with hy | hy
        · injection hy with _ hy; injection hy with hy
          subst hy
          have := ih.2 ht
          rw [List.getElem?_set_self'] at this
          cases ha : acc[i]? with
          | none => rw [ha] at this; simp at this
          | some a =>
            rw [ha] at this
            simp only [Option.map_eq_map, Option.map_some, Function.const, Option.some.injEq] at this
            rw [← this]
            exact hr s (by simp)
        · exact absurd ⟨y, hy⟩ ht
    · intro hn
      have ht : ¬ ∃ x, (x, some i) ∈ t := fun ⟨y, hy⟩ => hn ⟨y, by simp [hy]⟩
      have hk : k ≠ i := by rintro rfl; exact hn ⟨x, by simp⟩
      have := ih.2 ht
      rwa [List.getElem?_set_ne hk] at this

/-- Row `r` is in run `j`. -/
def inRunAt (rows : List (Option (Nat × Option Val))) (j r : Nat) : Prop := ∃ v, rows[r]? = some (some (j, v))

theorem Tagged.ge {P} {b : Nat} {cs rows} (h : Tagged P b cs rows) {j r : Nat} (hr : inRunAt rows j r) : b ≤ j := by
  induction h generalizing r with
  | nil => obtain ⟨v, hv⟩ := hr; simp at hv
  | @cons b c cs k vs i rest h1 hb hp _ ih =>
    obtain ⟨v, hv⟩ := hr
    by_cases hl : r < (inRun k i vs).length
    · rw [List.getElem?_append_left hl] at hv
      have := mem_inRun.mp (List.mem_of_getElem? hv)
      omega
    · rw [List.getElem?_append_right (by omega)] at hv
      have := ih ⟨v, hv⟩
      omega

/-- Other chunks for the same rows. -/
theorem Tagged.update {P P' : Nat → Chunk → Prop} {b : Nat} {cs rows} (h : Tagged P b cs rows) :
    ∀ {cs' : List Chunk}, List.Forall₂ Chunk.Keeps cs cs' →
    (∀ i c c' j, b ≤ j → cs[i]? = some c → cs'[i]? = some c' → P j c → c.Keeps c' → (∃ k vs, c.Holds k vs) →
      (c.typ ≠ 0 → ∀ r, inRunAt rows j r ↔ startOf cs i ≤ r ∧ r < startOf cs i + c.size) → P' j c') →
    Tagged P' b cs' rows := by
  induction h with
  | nil => intro cs' hk _; cases hk; exact .nil
  | @cons b c cs k vs j rest h1 hb hp ht ih =>
    intro cs' hk H
    cases hk with
    | @cons _ c' _ cs' hk1 hk2 =>
      have hlen : (inRun k j vs).length = c.size := by rw [h1.2]; simp
      refine .cons (hk1.same h1) hb ?_ (ih hk2 ?_)
      · refine H 0 c c' j hb rfl rfl hp hk1 ⟨k, vs, h1⟩ fun hty r => ?_
        have hk' : k ≠ .null := by
          rintro rfl
          obtain ⟨a, ha, hk, _⟩ := h1.1.abs
          exact hty (ha.typ_zero.mpr hk)
        simp only [startOf, List.take_zero, List.map_nil, List.sum_nil, Nat.zero_le, true_and, Nat.zero_add]
        constructor
        · rintro ⟨v, hv⟩
          by_contra hge
          rw [List.getElem?_append_right (by omega)] at hv
          have := ht.ge ⟨v, hv⟩
          omega
        · intro hlt
          have : r < vs.length := by rw [← h1.2]; exact hlt
          refine ⟨vs[r], ?_⟩
          rw [List.getElem?_append_left (by omega)]
          simp [inRun, heldRow, hk', this]
      · intro i d d' j' hj hd hd' hp' hkd hh hsp
        refine H (i + 1) d d' j' (by omega) (by simpa using hd) (by simpa using hd') hp' hkd hh fun hty r => ?_
        rw [startOf_succ]
        by_cases hlt : r < c.size
        · constructor
          · rintro ⟨v, hv⟩
            rw [List.getElem?_append_left (by omega)] at hv
            obtain ⟨_, rfl, _⟩ := mem_inRun.mp (List.mem_of_getElem? hv)
            omega
          · rintro ⟨g1, g2⟩; omega
        · have e : inRunAt (inRun k j vs ++ rest) j' r ↔ inRunAt rest j' (r - c.size) := by
            unfold inRunAt
            rw [List.getElem?_append_right (by omega), hlen]
          rw [e, hsp hty]
          constructor <;> rintro ⟨g1, g2⟩ <;> constructor <;> omega

/-! ## A column after some readings -/

/-- Run `j` is a run of references after these readings. -/
def HCol.raw (C : HCol) (done : List Reading) (j : Nat) : Prop :=
  j ∈ C.shared ∧ ∀ d ∈ done, d.covers C.rows j = false

theorem clash_iff (o : ConcatOpts) (C : HCol) (done : List Reading) (w : Reading) :
    C.clash o done w = true ↔ (o.confDt = true ∧ (heldCells (pickRows C.rows w.off w.len w.mask)).any isTs = true ∧
      ∃ j v, some (j, v) ∈ pickRows C.rows w.off w.len w.mask ∧ C.raw done j) := by
  unfold HCol.clash HCol.raw
  simp only [Bool.and_eq_true, and_assoc, and_congr_right_iff]
  intro _ _
  rw [List.any_eq_true]
  constructor
  · rintro ⟨r, hr, h⟩
    cases r with
    | none => simp at h
    | some x =>
      simp only [Option.any_some, Bool.and_eq_true, List.contains_eq_mem, decide_eq_true_eq, Bool.not_eq_true',
        List.any_eq_false] at h
      exact ⟨x.1, x.2, hr, h.1, fun d hd => by simpa using h.2 d hd⟩
  · rintro ⟨j, v, hr, h4, h5⟩
    refine ⟨_, hr, ?_⟩
    simp only [Option.any_some, Bool.and_eq_true, List.contains_eq_mem, decide_eq_true_eq, Bool.not_eq_true',
        List.any_eq_false]
    exact ⟨h4, fun d hd => by simpa using h5 d hd⟩

theorem covers_iff (rows : List (Option (Nat × Option Val))) (j : Nat) (w : Reading) :
    w.covers rows j = true ↔ w.mask = none ∧ ∀ r, inRunAt rows j r → w.off ≤ r ∧ r < w.off + w.len := by
  unfold Reading.covers inRunAt
  simp only [Bool.and_eq_true, Option.isNone_iff_eq_none, List.all_eq_true, Bool.or_eq_true, Bool.not_eq_true',
    decide_eq_true_eq, and_congr_right_iff]
  intro _
  constructor
  · rintro h r ⟨v, hv⟩
    have := h (some (j, v), r) (List.mem_zipIdx_iff_getElem?.mpr hv)
    simpa using this
  · rintro h ⟨x, r⟩ hx
    rw [List.mem_zipIdx_iff_getElem?] at hx
    simp only at hx ⊢
    cases x with
    | none => simp
    | some x =>
      by_cases hj : x.1 = j
      · right; exact h r ⟨x.2, by rw [hx, ← hj]⟩
      · left; simpa using hj

theorem takeOver_covers {cs : List Chunk} (hs : Sound cs) (hz : ∀ c ∈ cs, c.size ≠ 0) {off len : Nat} (hl : 0 < len)
    {t : List Taken} (e : takeOver cs off len none = .ok t) {i : Nat} {c : Chunk} (hi : cs[i]? = some c) :
    (∃ x, (x, some i) ∈ t) ↔ off ≤ startOf cs i ∧ startOf cs i + c.size ≤ off + len := by
  simp only [takeOver] at e
  cases h1 : takeLoop len cs 0 off 0 with
  | error x => rw [h1] at e; simp at e
  | ok p =>
    obtain ⟨r, n⟩ := p
    rw [h1] at e
    injection e with e
    have := takeLoop_covers len (by omega) cs 0 off 0 r n hs hz (le_refl _) (by omega) h1 i c hi
    rw [Nat.zero_add] at this
    have e2 : (∃ x, (x, some i) ∈ t) ↔ ∃ x, (x, some i) ∈ r := by
      rw [← e]
      constructor
      · rintro ⟨x, hx⟩
        rcases List.mem_append.mp hx with hx | hx
        · exact ⟨x, hx⟩
        · split at hx <;> simp at hx
      · rintro ⟨x, hx⟩; exact ⟨x, List.mem_append_left _ hx⟩
    rw [e2, this]
    constructor <;> rintro ⟨g1, g2⟩ <;> constructor <;> omega

theorem takeOver_mask_alias {cs : List Chunk} {off len : Int} {m : List Bool} {t : List Taken}
    (e : takeOver cs off len (some m) = .ok t) (i : Nat) : ¬ ∃ x, (x, some i) ∈ t := by
  rintro ⟨x, hx⟩
  simp only [takeOver] at e
  by_cases h0 : trueCount m = 0
  · rw [if_pos h0] at e; injection e with e; rw [← e] at hx; simp at hx
  · rw [if_neg h0] at e
    cases h1 : takeLoopIdx m cs 0 off 0 with
    | error e2 => rw [h1] at e; simp at e
    | ok p =>
      obtain ⟨r', n⟩ := p
      rw [h1] at e
      injection e with e
      rw [← e] at hx
      rcases List.mem_append.mp hx with hx | hx
      · have := takeLoopIdx_alias m cs 0 off 0 r' n h1 _ hx
        simp at this
      · split at hx <;> simp at hx

theorem Chunk.Keeps.typ {c c' : Chunk} (h : c.Keeps c') (hs : ∃ k vs, c.Holds k vs) : c.typ = 0 ↔ c'.typ = 0 := by
  obtain ⟨k, vs, hc⟩ := hs
  obtain ⟨a, ha, _⟩ := hc.1.abs
  obtain ⟨a', ha', e, _⟩ := h.2 a ha
  rw [ha.typ_zero, ha'.typ_zero, ← ACh.looked_cls a, ← e, ACh.looked_cls]

theorem Chunk.Keeps.resolved {c c' : Chunk} (h : c.Keeps c') (hs : ∃ k vs, c.Holds k vs) (hr : c.Resolved) :
    c'.Resolved := by
  obtain ⟨k, vs, hc⟩ := hs
  obtain ⟨a, ha, _⟩ := hc.1.abs
  obtain ⟨a', ha', _, r⟩ := h.2 a ha
  exact notRaw.resolved ha' (r (Resolved.notRaw hr ha))

/-- A reading that succeeds looks up the runs it covers, and no others. -/
theorem concatenate_history (env : Env) (o : ConcatOpts) {C : HCol} {done : List Reading} {cs : List Chunk} {b : Nat}
    (h : Tagged (RawIs (C.raw done)) b cs C.rows) (hz : ∀ c ∈ cs, c.size ≠ 0) (w : Reading) (hm : SomeRow w.len w.mask)
    {v : Arr} (hv : (concatenate env o cs w.off w.len w.mask).2 = .ok v) :
    Tagged (RawIs (C.raw (w :: done))) b (concatenate env o cs w.off w.len w.mask).1 C.rows ∧
    ∀ c ∈ (concatenate env o cs w.off w.len w.mask).1, c.size ≠ 0 := by
  have hw : (w.off : Int) ≠ 0 ∨ (w.len : Int) ≠ 0 ∨ w.mask.isSome := by
    cases hmask : w.mask with
    | none => rw [hmask] at hm; exact .inr (.inl (by have : 0 < w.len := hm; omega))
    | some m => exact .inr (.inr rfl)
  have hs := h.column.sound
  have hk := concatenate_keeps_window env o cs hs w.off w.len w.mask hw
  refine ⟨h.update hk ?_, ?_⟩
  · unfold concatenate at hv
    rw [if_pos hw] at hv
    cases ht : takeOver cs w.off w.len w.mask with
    | error e => rw [ht] at hv; simp at hv
    | ok t =>
      rw [ht] at hv
      simp only at hv
      have he : (concatenate env o cs w.off w.len w.mask).1 =
          writeBack cs t (concatSlots env o (t.map fun t => ⟨t.1, none⟩)).1 := by
        unfold concatenate
        rw [if_pos hw, ht]
      obtain ⟨as, has⟩ := (takeOver_sound hs w.off w.len w.mask t ht).abs
      have hl := lift_slots has
      rw [takenChunks, List.map_map] at hl
      have hres := concatSlots_resolved env o _ as hl (by
        intro s hs
        obtain ⟨x, _, rfl⟩ := List.mem_map.mp hs
        rfl) (v := v) hv
      have hlen : t.length = (concatSlots env o (t.map fun t => ⟨t.1, none⟩)).1.length := by
        have := (concatSlots_abs env o _ as hl).1.length_eq
        rw [List.length_map] at this
        exact this
      intro i c c' j hj hc hc' hp hkc hh hsp
      rw [he] at hc'
      obtain ⟨w1, w2⟩ := writeBack_at t _ cs hlen hres i c' hc'
      by_cases hty : c.typ = 0
      · exact .inl ((hkc.typ hh).mp hty)
      right
      have hsp := hsp hty
      have hp := hp.resolve_left hty
      have hsz := hz c (List.mem_of_getElem? hc)
      have hcov : w.covers C.rows j = true ↔ ∃ x, (x, some i) ∈ t := by
        rw [covers_iff]
        cases hmask : w.mask with
        | some m =>
          rw [hmask] at ht
          constructor
          · rintro ⟨h0, _⟩; simp at h0
          · exact fun h0 => absurd h0 (takeOver_mask_alias ht i)
        | none =>
          rw [hmask] at ht hm
          rw [takeOver_covers hs hz hm ht hc]
          constructor
          · rintro ⟨_, h1⟩
            have a1 := h1 _ ((hsp (startOf cs i)).mpr ⟨le_refl _, by omega⟩)
            have a2 := h1 _ ((hsp (startOf cs i + c.size - 1)).mpr ⟨by omega, by omega⟩)
            omega
          · rintro ⟨a1, a2⟩
            refine ⟨rfl, fun r hr => ?_⟩
            have := (hsp r).mp hr
            omega
      have hraw : C.raw (w :: done) j ↔ C.raw done j ∧ w.covers C.rows j = false := by
        unfold HCol.raw
        constructor
        · rintro ⟨a1, a2⟩; exact ⟨⟨a1, fun d hd => a2 d (by simp [hd])⟩, a2 w (by simp)⟩
        · rintro ⟨⟨a1, a2⟩, a3⟩
          refine ⟨a1, fun d hd => ?_⟩
          rcases List.mem_cons.mp hd with rfl | hd
          · exact a3
          · exact a2 d hd
      rw [hraw, ← hp]
      by_cases hal : ∃ x, (x, some i) ∈ t
      · have := w1 hal
        simp [this, hcov.mpr hal]
      · have h0 := w2 hal
        rw [hc] at h0
        injection h0 with h0
        subst h0
        have : w.covers C.rows j = false := by
          rw [← Bool.not_eq_true, hcov]; exact hal
        simp [this]
  · intro c hc
    obtain ⟨i, hi⟩ := List.mem_iff_getElem?.mp hc
    rw [List.forall₂_iff_get] at hk
    obtain ⟨hl, hk⟩ := hk
    obtain ⟨hi', rfl⟩ := List.getElem?_eq_some_iff.mp hi
    have := hk i (by omega) hi'
    simp only [List.get_eq_getElem] at this
    rw [this.1]
    exact hz _ (List.getElem_mem _)

/-- A column of a sheet after some readings. -/
structure Series.After (env : Env) (o : ConcatOpts) (C : HCol) (done : List Reading) (s : Series) : Prop where
  state : ∃ s', s.flush env = .ok s' ∧ Tagged (RawIs (C.raw done)) 0 s'.chunks C.rows ∧ s'.chunks ≠ [] ∧
    (∀ c ∈ s'.chunks, c.size ≠ 0) ∧ s'.cur = [] ∧ s'.opts = s.opts
  opts : s.opts = o

theorem Series.After.clash {env : Env} {o : ConcatOpts} {C : HCol} {done : List Reading} {s : Series}
    (h : s.After env o C done) (w : Reading) (hm : SomeRow w.len w.mask) (hc : C.clash o done w = true) :
    ∃ s', s.toArrow env w.off w.len w.mask = (s', .error .arrowNotImplemented) := by
  obtain ⟨s1, hf, ht, hne, hz, hcur, ho⟩ := h.state
  have hop : s1.opts = o := ho.trans h.opts
  have e := (concatenate_raw env o ht w.off w.len w.mask hm).1 ((clash_iff o C done w).mp hc)
  unfold Series.toArrow
  rw [hf]
  simp only [List.isEmpty_iff, hne, if_false]
  rw [hop]
  generalize hcc : concatenate env o s1.chunks (w.off : Int) (w.len : Int) w.mask = r at e
  obtain ⟨cs', r2⟩ := r
  simp only at e
  subst e
  exact ⟨_, rfl⟩

theorem Series.After.fetch {env : Env} {o : ConcatOpts} {C : HCol} {done : List Reading} {s : Series}
    (h : s.After env o C done) (w : Reading) (hm : SomeRow w.len w.mask) (hc : C.clash o done w = false) :
    ∃ s', s.toArrow env w.off w.len w.mask =
        (s', .ok (.arr (fetchedHeld env o (pickRows C.rows w.off w.len w.mask)))) ∧ s'.After env o C (w :: done) := by
  obtain ⟨s1, hf, ht, hne, hz, hcur, ho⟩ := h.state
  have hop : s1.opts = o := ho.trans h.opts
  have e := (concatenate_raw env o ht w.off w.len w.mask hm).2 (by rw [← clash_iff o C done w, hc]; simp)
  have hh := concatenate_history env o ht hz w hm e
  have hl : (concatenate env o s1.chunks w.off w.len w.mask).1.length = s1.chunks.length := by
    have hw : (w.off : Int) ≠ 0 ∨ (w.len : Int) ≠ 0 ∨ w.mask.isSome := by
      cases hmask : w.mask with
      | none => rw [hmask] at hm; exact .inr (.inl (by have : 0 < w.len := hm; omega))
      | some m => exact .inr (.inr rfl)
    exact (concatenate_keeps_window env o s1.chunks ht.column.sound w.off w.len w.mask hw).length_eq.symm
  unfold Series.toArrow
  rw [hf]
  simp only [List.isEmpty_iff, hne, if_false]
  rw [hop]
  generalize hcc : concatenate env o s1.chunks (w.off : Int) (w.len : Int) w.mask = r at e hh hl
  obtain ⟨cs', r2⟩ := r
  simp only at e hh hl
  subst e
  refine ⟨{ s1 with chunks := cs' }, by rw [← hop], ⟨{ s1 with chunks := cs' }, ?_, hh.1, ?_, hh.2, hcur, rfl⟩, hop⟩
  · unfold Series.flush
    rw [if_pos (by simp [hcur])]
  · intro h0
    simp only at h0
    rw [h0] at hl
    exact hne (List.length_eq_zero_iff.mp hl.symm)

end Rxls
