import Verif.Lemmas.ConcatType

/-! # `concatenate` on whole columns -/

namespace Rxls

theorem concatenate_whole (env : Env) (o : ConcatOpts) {cs : List Chunk} {rs : Runs} (h : HoldsRuns cs rs) :
    ∃ as, List.Forall₂ Abs cs as ∧ as.map ACh.run = rs ∧
      (concatenate env o cs 0 0 none).2 = aConcat env o as := by
  obtain ⟨as, h1, h2⟩ := h.abs
  refine ⟨as, h1, h2, ?_⟩
  rw [← concatSlots_runs env o h1]
  simp [concatenate]

theorem concatenate_taken (env : Env) (o : ConcatOpts) {cs : List Chunk} {off len : Int} {m : Option (List Bool)}
    (hw : off ≠ 0 ∨ len ≠ 0 ∨ m.isSome) {t : List Taken} (ht : takeOver cs off len m = .ok t)
    {rs : Runs} (h : HoldsRuns (takenChunks t) rs) :
    ∃ as, List.Forall₂ Abs (takenChunks t) as ∧ as.map ACh.run = rs ∧
      (concatenate env o cs off len m).2 = aConcat env o as := by
  obtain ⟨as, h1, h2⟩ := h.abs
  refine ⟨as, h1, h2, ?_⟩
  rw [← concatSlots_runs env o h1]
  simp only [concatenate, if_pos hw, ht, takenChunks, List.map_map]
  rfl

theorem runs_cells (as : List ACh) : Runs.cells (as.map ACh.run) = as.flatMap ACh.cells := by
  simp [Runs.cells, List.flatMap_map, ACh.run]

/-! ## Predicates kept by selections -/

/-- Kept by every selection and true of null chunks. -/
structure TakePred (P : Chunk → Prop) : Prop where
  take : ∀ c ix c', P c → c.take ix = .ok c' → P c'
  nulls : ∀ n, P (Chunk.nulls n)

theorem cutTop_pred {P} (hP : TakePred P) {c : Chunk} {i o t} (h : P c) (e : cutTop c i o = .ok t) : P t.1 := by
  unfold cutTop at e
  by_cases ho : 0 < o
  · rw [if_pos ho] at e
    cases h1 : c.take (.slice ⟨some o, none, none⟩) with
    | error x => rw [h1] at e; simp at e
    | ok c' => rw [h1] at e; injection e with e; subst e; exact hP.take _ _ _ h h1
  · rw [if_neg ho] at e; injection e with e; subst e; exact h

theorem cutBottom_pred {P} (hP : TakePred P) {t : Taken} {l cum t'} (h : P t.1) (e : cutBottom t l cum = .ok t') :
    P t'.1 := by
  unfold cutBottom at e
  by_cases ho : l ≠ 0 ∧ l < cum
  · rw [if_pos ho] at e
    cases h1 : t.1.take (.slice ⟨none, some (t.1.size + l - cum), none⟩) with
    | error x => rw [h1] at e; simp at e
    | ok c' => rw [h1] at e; injection e with e; subst e; exact hP.take _ _ _ h h1
  · rw [if_neg ho] at e; injection e with e; subst e; exact h

theorem keep_pred {P : Chunk → Prop} {t : Taken} (h : P t.1) : ∀ x ∈ keepTaken t, P x.1 := by
  unfold keepTaken
  split
  · simpa using h
  · simp

theorem takeLoop_pred {P} (hP : TakePred P) (len : Int) : ∀ (cs : List Chunk) (i : Nat) (o cum : Int) (r : List Taken × Int),
    (∀ c ∈ cs, P c) → takeLoop len cs i o cum = .ok r → ∀ x ∈ r.1, P x.1
  | [], i, o, cum, r, _, e => by
    rw [takeLoop] at e; injection e with e; subst e; simp
  | c :: cs, i, o, cum, r, h, e => by
    have ih := takeLoop_pred hP len cs
    have hr : ∀ c ∈ cs, P c := fun c hc => h c (by simp [hc])
    rw [takeLoop] at e
    split at e
    · exact ih _ _ _ _ hr e
    · cases h1 : cutTop c i o with
      | error x => rw [h1] at e; simp at e
      | ok t1 =>
        rw [h1] at e
        simp only at e
        have p1 := cutTop_pred hP (h c (by simp)) h1
        cases h2 : cutBottom t1 len (cum + t1.1.size) with
        | error x => rw [h2] at e; simp at e
        | ok t2 =>
          rw [h2] at e
          simp only at e
          have p2 := cutBottom_pred hP p1 h2
          split at e
          · injection e with e; subst e; exact keep_pred p2
          · cases h3 : takeLoop len cs (i + 1) (if 0 < o then 0 else o) (cum + t1.1.size) with
            | error x => rw [h3] at e; simp at e
            | ok q =>
              rw [h3] at e
              injection e with e; subst e
              intro x hx
              rcases List.mem_append.mp hx with hx | hx
              · exact keep_pred p2 x hx
              · exact ih _ _ _ _ hr h3 x hx

theorem takeLoopIdx_pred {P} (hP : TakePred P) (m : List Bool) : ∀ (cs : List Chunk) (i : Nat) (o cum : Int)
    (r : List Taken × Int), (∀ c ∈ cs, P c) → takeLoopIdx m cs i o cum = .ok r → ∀ x ∈ r.1, P x.1
  | [], i, o, cum, r, _, e => by
    rw [takeLoopIdx] at e; injection e with e; subst e; simp
  | c :: cs, i, o, cum, r, h, e => by
    have ih := takeLoopIdx_pred hP m cs
    have hr : ∀ c ∈ cs, P c := fun c hc => h c (by simp [hc])
    rw [takeLoopIdx] at e
    split at e
    · exact ih _ _ _ _ hr e
    · cases h1 : cutTop c 0 o with
      | error x => rw [h1] at e; simp at e
      | ok t1 =>
        rw [h1] at e
        obtain ⟨c1, al⟩ := t1
        simp only at e
        have p1 : P c1 := cutTop_pred hP (h c (by simp)) h1
        split at e
        · exact ih _ _ _ _ hr e
        · cases h2 : c1.take (.slice ⟨none, some ((m.drop i).take c1.size).length, none⟩) with
          | error x => rw [h2] at e; simp at e
          | ok c2 =>
            rw [h2] at e
            simp only at e
            cases h4 : c2.take (.mask ((m.drop i).take c1.size)) with
            | error x => rw [h4] at e; simp at e
            | ok it =>
              rw [h4] at e
              simp only at e
              have p3 := hP.take _ _ _ (hP.take _ _ _ p1 h2) h4
              cases h3 : takeLoopIdx m cs (i + c1.size) (if 0 < o then 0 else o)
                  (if it.size ≠ 0 then cum + it.size else cum) with
              | error x => rw [h3] at e; simp at e
              | ok q =>
                rw [h3] at e
                injection e with e; subst e
                intro x hx
                rcases List.mem_append.mp hx with hx | hx
                · exact keep_pred (t := (it, none)) p3 x hx
                · exact ih _ _ _ _ hr h3 x hx

theorem takeOver_pred {P} (hP : TakePred P) {cs : List Chunk} {o l : Int} {m : Option (List Bool)} {t : List Taken}
    (h : ∀ c ∈ cs, P c) (e : takeOver cs o l m = .ok t) : ∀ c ∈ takenChunks t, P c := by
  have key : ∀ (r : List Taken) (b : Prop) [Decidable b] (n : Nat), (∀ x ∈ r, P x.1) →
      ∀ c ∈ takenChunks (r ++ if b then [(Chunk.nulls n, none)] else []), P c := by
    intro r b _ n hr c hc
    simp only [takenChunks, List.map_append, List.mem_append, List.mem_map] at hc
    rcases hc with ⟨x, hx, rfl⟩ | ⟨x, hx, rfl⟩
    · exact hr x hx
    · by_cases hb : b
      · rw [if_pos hb] at hx; simp only [List.mem_singleton] at hx; subst hx; exact hP.nulls n
      · rw [if_neg hb] at hx; simp at hx
  unfold takeOver at e
  cases m with
  | some m =>
    simp only at e
    split at e
    · injection e with e; subst e; simp
    · cases h1 : takeLoopIdx m cs 0 o 0 with
      | error x => rw [h1] at e; simp at e
      | ok q =>
        rw [h1] at e
        injection e with e; subst e
        exact key _ _ _ (takeLoopIdx_pred hP m cs 0 o 0 q h h1)
  | none =>
    simp only at e
    cases h1 : takeLoop l cs 0 o 0 with
    | error x => rw [h1] at e; simp at e
    | ok q =>
      rw [h1] at e
      injection e with e; subst e
      exact key _ _ _ (takeLoop_pred hP l cs 0 o 0 q h h1)

theorem everyNth_sub {α : Type} (k : Nat) : ∀ (j : Nat) (l : List α) (x : α), x ∈ everyNth k j l → x ∈ l
  | _, [], x, h => by simp [everyNth] at h
  | 0, y :: ys, x, h => by
    rw [everyNth] at h
    rcases List.mem_cons.mp h with rfl | h
    · simp
    · exact List.mem_cons_of_mem _ (everyNth_sub k _ ys x h)
  | j + 1, y :: ys, x, h => by
    rw [everyNth] at h
    exact List.mem_cons_of_mem _ (everyNth_sub k _ ys x h)

theorem selectList_sub {α : Type} {e : PyErr} {l r : List α} {ix : TakeIdx} (h : selectList e l ix = .ok r) :
    ∀ x ∈ r, x ∈ l := by
  have hs : ∀ s : PySlice, ∀ x ∈ sliceList l s, x ∈ l := by
    intro s x hx
    have := everyNth_sub _ _ _ _ hx
    exact List.mem_of_mem_take (List.mem_of_mem_drop this)
  cases ix with
  | «at» i => rw [selectList] at h; injection h with h; subst h; exact hs _
  | slice s => rw [selectList] at h; injection h with h; subst h; exact hs _
  | mask m =>
    rw [selectList] at h
    split at h
    · injection h with h; subst h
      intro x hx
      simp only [maskList, List.mem_filterMap] at hx
      obtain ⟨p, hp, hx⟩ := hx
      split at hx
      · injection hx with hx; subst hx; exact (List.of_mem_zip (a := p.1) (b := p.2) hp).1
      · simp at hx
    · simp at h

/-- The chunk does not refer to a missing string. -/
def Chunk.NoGap (c : Chunk) : Prop :=
  match c.data with
  | .strs l => none ∉ l
  | .idx l => ∀ i ∈ l, c.sref[i]? ≠ some none
  | _ => True

/-- The data of a selection: the same representation, some of the elements. -/
theorem take_data {c c' : Chunk} {ix : TakeIdx} (h : c.take ix = .ok c') :
    (∃ l l' : List (Option Str), c.data = .strs l ∧ c'.data = .strs l' ∧ (∀ x ∈ l', x ∈ l)) ∨
    (∃ l l' : List Nat, c.data = .idx l ∧ c'.data = .idx l' ∧ c'.sref = c.sref ∧ (∀ x ∈ l', x ∈ l)) ∨
    ((∀ l, c'.data ≠ .strs l) ∧ (∀ l, c'.data ≠ .idx l)) := by
  unfold Chunk.take at h
  split at h
  · cases hd : c.data with
    | strs l =>
      rw [hd] at h
      simp only [bind, Except.bind] at h
      cases h1 : selectList .arrowInvalid l ix with
      | error e => rw [h1] at h; simp at h
      | ok d =>
        rw [h1] at h; injection h with h; subst h
        exact .inl ⟨l, d, rfl, rfl, selectList_sub h1⟩
    | idx l =>
      rw [hd] at h
      simp only [bind, Except.bind] at h
      cases h1 : selectList .arrowInvalid l ix with
      | error e => rw [h1] at h; simp at h
      | ok d =>
        rw [h1] at h; injection h with h; subst h
        exact .inr (.inl ⟨l, d, rfl, rfl, rfl, selectList_sub h1⟩)
    | _ => rw [hd] at h; simp at h
  · split at h
    · refine .inr (.inr ?_)
      cases ix with
      | «at» i => simp only at h; injection h with h; subst h; simp [Chunk.nulls]
      | slice s => simp only at h; injection h with h; subst h; simp [Chunk.nulls]
      | mask m =>
        simp only at h
        split at h
        · simp at h
        · injection h with h; subst h; simp [Chunk.nulls]
    · refine .inr (.inr ?_)
      cases hd : c.data with
      | u32 l =>
        rw [hd] at h
        simp only [bind, Except.bind] at h
        cases h1 : selectList .indexError l ix with
        | error e => rw [h1] at h; simp at h
        | ok d => rw [h1] at h; injection h with h; subst h; simp
      | f8 l =>
        rw [hd] at h
        simp only [bind, Except.bind] at h
        cases h1 : selectList .indexError l ix with
        | error e => rw [h1] at h; simp at h
        | ok d => rw [h1] at h; injection h with h; subst h; simp
      | i8 l =>
        rw [hd] at h
        simp only [bind, Except.bind] at h
        cases h1 : selectList .indexError l ix with
        | error e => rw [h1] at h; simp at h
        | ok d => rw [h1] at h; injection h with h; subst h; simp
      | _ => rw [hd] at h; simp at h

theorem noGap_pred : TakePred Chunk.NoGap where
  take c ix c' h e := by
    rcases take_data e with ⟨l, l', h1, h2, h3⟩ | ⟨l, l', h1, h2, h3, h4⟩ | ⟨h1, h2⟩
    · simp only [Chunk.NoGap, h1] at h
      simp only [Chunk.NoGap, h2]
      exact fun hn => h (h3 _ hn)
    · simp only [Chunk.NoGap, h1] at h
      simp only [Chunk.NoGap, h2, h3]
      exact fun i hi => h i (h4 i hi)
    · unfold Chunk.NoGap
      cases hd : c'.data with
      | strs l => exact absurd hd (h1 l)
      | idx l => exact absurd hd (h2 l)
      | _ => trivial
  nulls n := trivial

theorem resolved_pred : TakePred Chunk.Resolved where
  take c ix c' h e := by
    rcases take_data e with ⟨l, l', h1, h2, h3⟩ | ⟨l, l', h1, h2, h3, h4⟩ | ⟨h1, h2⟩
    · intro l; rw [h2]; simp
    · exact absurd h1 (h l)
    · exact h2
  nulls n := by intro l; simp [Chunk.nulls]

theorem NoGap.full {c : Chunk} {a : ACh} (h : c.NoGap) (ha : Abs c a) : a.full := by
  cases ha with
  | str l sz sr =>
    simp only [Chunk.NoGap] at h
    simp only [ACh.full, List.all_eq_true]
    intro x hx
    cases x with
    | none => exact absurd hx h
    | some => rfl
  | shared l sz sr vs hv =>
    simp only [Chunk.NoGap] at h
    simp only [ACh.full, List.all_eq_true]
    intro x hx
    cases x with
    | some => rfl
    | none =>
      have : some none ∈ l.map (sr[·]?) := by rw [hv]; exact List.mem_map_of_mem hx
      obtain ⟨i, hi, he⟩ := List.mem_map.mp this
      exact absurd he (h i hi)
  | _ => rfl

theorem forall2_left {α β : Type} {R : α → β → Prop} {P : α → Prop} {Q : β → Prop} {l : List α} {l' : List β}
    (h : List.Forall₂ R l l') (hp : ∀ a ∈ l, P a) (hq : ∀ a b, P a → R a b → Q b) : ∀ b ∈ l', Q b := by
  induction h with
  | nil => simp
  | @cons a b l l' hab _ ih =>
    intro x hx
    rcases List.mem_cons.mp hx with rfl | hx
    · exact hq a _ (hp a (by simp)) hab
    · exact ih (fun a ha => hp a (by simp [ha])) x hx

theorem window_length {α : Type} (col : List (Option α)) (off len : Nat) : (window col off len).length = len := by
  simp [window]

theorem trueCount_range : ∀ m : List Bool,
    ((List.range m.length).filter (fun i => m[i]? = some true)).length = trueCount m
  | [] => rfl
  | b :: m => by
    have ih := trueCount_range m
    rw [List.length_cons, List.range_succ_eq_map, List.filter_cons]
    have e : ((List.map Nat.succ (List.range m.length)).filter fun i => decide ((b :: m)[i]? = some true)).length
        = trueCount m := by
      rw [List.filter_map, List.length_map, ← ih]
      congr 1
    cases b with
    | true =>
      simp only [List.getElem?_cons_zero, decide_true, if_true, List.length_cons, e]
      rw [show trueCount (true :: m) = trueCount m + 1 by rfl]
    | false =>
      simp only [List.getElem?_cons_zero]
      rw [if_neg (by simp), e]
      rfl

theorem maskedRows_length {α : Type} (col : List (Option α)) (off : Nat) (m : List Bool) :
    (maskedRows col off m).length = trueCount m := by
  simp [maskedRows, trueCount_range]

/-! ## The first string run that is not numeric -/

theorem aNumLoop_first (env : Env) : ∀ (as : List ACh),
    (∃ pre a post, as = pre ++ a :: post ∧ (∀ b ∈ pre, b.cls ≠ .utf8) ∧ a.cls = .utf8 ∧
      numericTexts env a.cells = false) → aNumLoop env as = (as, true)
  | [], ⟨pre, a, post, h, _⟩ => by simp at h
  | c :: as, ⟨pre, a, post, h, hp, ha, hn⟩ => by
    cases pre with
    | nil =>
      simp only [List.nil_append, List.cons.injEq] at h
      obtain ⟨rfl, rfl⟩ := h
      cases c with
      | str l raw =>
        rcases aNumeric_texts env l with ⟨xs, h1, h2, _⟩ | ⟨e, h1, h2⟩
        · simp only [ACh.cells] at hn; rw [hn] at h2; simp at h2
        · rw [aNumLoop, h1]
      | _ => simp [ACh.cls] at ha
    | cons b pre =>
      simp only [List.cons_append, List.cons.injEq] at h
      obtain ⟨rfl, h⟩ := h
      have ih := aNumLoop_first env as ⟨pre, a, post, h, fun b hb => hp b (by simp [hb]), ha, hn⟩
      have hc := hp c (by simp)
      cases c with
      | str l raw => simp [ACh.cls] at hc
      | _ => rw [aNumLoop, ih]; simp

end Rxls
