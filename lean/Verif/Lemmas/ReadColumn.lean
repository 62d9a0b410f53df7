import Verif.Lemmas.RunsConcat
import Verif.Lemmas.Purity
import Verif.Lemmas.Series

/-! # Reading rows of a column -/

namespace Rxls

theorem keep_size (t : Taken) : ∀ x ∈ keepTaken t, x.1.size ≠ 0 := by
  unfold keepTaken
  split
  · rename_i h; simpa using h
  · simp

theorem takeLoop_size (len : Int) : ∀ (cs : List Chunk) (i : Nat) (o cum : Int) (r : List Taken × Int),
    takeLoop len cs i o cum = .ok r → ∀ x ∈ r.1, x.1.size ≠ 0
  | [], i, o, cum, r, e => by
    rw [takeLoop] at e; injection e with e; subst e; simp
  | c :: cs, i, o, cum, r, e => by
    have ih := takeLoop_size len cs
    rw [takeLoop] at e
    split at e
    · exact ih _ _ _ _ e
    · cases h1 : cutTop c i o with
      | error x => rw [h1] at e; simp at e
      | ok t1 =>
        rw [h1] at e
        simp only at e
        cases h2 : cutBottom t1 len (cum + t1.1.size) with
        | error x => rw [h2] at e; simp at e
        | ok t2 =>
          rw [h2] at e
          simp only at e
          split at e
          · injection e with e; subst e; exact keep_size t2
          · cases h3 : takeLoop len cs (i + 1) (if 0 < o then 0 else o) (cum + t1.1.size) with
            | error x => rw [h3] at e; simp at e
            | ok q =>
              rw [h3] at e
              injection e with e; subst e
              intro x hx
              rcases List.mem_append.mp hx with hx | hx
              · exact keep_size t2 x hx
              · exact ih _ _ _ _ h3 x hx

theorem takeLoopIdx_size (m : List Bool) : ∀ (cs : List Chunk) (i : Nat) (o cum : Int)
    (r : List Taken × Int), takeLoopIdx m cs i o cum = .ok r → ∀ x ∈ r.1, x.1.size ≠ 0
  | [], i, o, cum, r, e => by
    rw [takeLoopIdx] at e; injection e with e; subst e; simp
  | c :: cs, i, o, cum, r, e => by
    have ih := takeLoopIdx_size m cs
    rw [takeLoopIdx] at e
    split at e
    · exact ih _ _ _ _ e
    · cases h1 : cutTop c 0 o with
      | error x => rw [h1] at e; simp at e
      | ok t1 =>
        rw [h1] at e
        obtain ⟨c1, al⟩ := t1
        simp only at e
        split at e
        · exact ih _ _ _ _ e
        · cases h2 : c1.take (.slice ⟨none, some ((m.drop i).take c1.size).length, none⟩) with
          | error x => rw [h2] at e; simp at e
          | ok c2 =>
            rw [h2] at e
            simp only at e
            cases h4 : c2.take (.mask ((m.drop i).take c1.size)) with
            | error x => rw [h4] at e; simp at e
            | ok it =>
              rw [h4] at e
              simp only at e
              cases h3 : takeLoopIdx m cs (i + c1.size) (if 0 < o then 0 else o)
                  (if it.size ≠ 0 then cum + it.size else cum) with
              | error x => rw [h3] at e; simp at e
              | ok q =>
                rw [h3] at e
                injection e with e; subst e
                intro x hx
                rcases List.mem_append.mp hx with hx | hx
                · exact keep_size (it, none) x hx
                · exact ih _ _ _ _ h3 x hx

theorem takeOver_size {cs : List Chunk} {o l : Int} {m : Option (List Bool)} {t : List Taken}
    (e : takeOver cs o l m = .ok t) : ∀ c ∈ takenChunks t, c.size ≠ 0 := by
  have key : ∀ (r : List Taken) (b : Prop) [Decidable b] (n : Nat), (b → n ≠ 0) → (∀ x ∈ r, x.1.size ≠ 0) →
      ∀ c ∈ takenChunks (r ++ if b then [(Chunk.nulls n, none)] else []), c.size ≠ 0 := by
    intro r b _ n hn hr c hc
    simp only [takenChunks, List.map_append, List.mem_append, List.mem_map] at hc
    rcases hc with ⟨x, hx, rfl⟩ | ⟨x, hx, rfl⟩
    · exact hr x hx
    · by_cases hb : b
      · rw [if_pos hb] at hx; simp only [List.mem_singleton] at hx; subst hx; exact hn hb
      · rw [if_neg hb] at hx; simp at hx
  unfold takeOver at e
  cases m with
  | some m =>
    simp only at e
    split at e
    · injection e with e; subst e; simp [takenChunks]
    · cases h1 : takeLoopIdx m cs 0 o 0 with
      | error x => rw [h1] at e; simp at e
      | ok q =>
        rw [h1] at e
        injection e with e; subst e
        exact key _ _ _ (by intro h; omega) (takeLoopIdx_size m cs 0 o 0 q h1)
  | none =>
    simp only at e
    cases h1 : takeLoop l cs 0 o 0 with
    | error x => rw [h1] at e; simp at e
    | ok q =>
      rw [h1] at e
      injection e with e; subst e
      exact key _ _ _ (by intro h; omega) (takeLoop_size l cs 0 o 0 q h1)

/-- There is a row to read. -/
def SomeRow (len : Nat) : Option (List Bool) → Prop
  | none => 0 < len
  | some m => trueCount m ≠ 0

theorem pickRows_length {α : Type} (col : List (Option α)) (off len : Nat) (m : Option (List Bool)) :
    (pickRows col off len m).length = match m with
      | none => len
      | some m => trueCount m := by
  cases m with
  | none => exact window_length col off len
  | some m => exact maskedRows_length col off m

theorem pickRows_mem {α : Type} {col : List (Option α)} {off len : Nat} {m : Option (List Bool)} {v : α}
    (h : some v ∈ pickRows col off len m) : some v ∈ col := by
  have key : ∀ i : Nat, cellAt col i = some v → some v ∈ col := by
    intro i hi
    unfold cellAt at hi
    cases hc : col[i]? with
    | none => rw [hc] at hi; simp at hi
    | some w =>
      rw [hc] at hi
      simp only [Option.join_some] at hi
      subst hi
      exact List.mem_of_getElem? hc
  cases m with
  | none =>
    simp only [pickRows, window, List.mem_map] at h
    obtain ⟨i, _, hi⟩ := h
    exact key _ hi
  | some m =>
    simp only [pickRows, maskedRows, List.mem_map] at h
    obtain ⟨i, _, hi⟩ := h
    exact key _ hi

/-- A row with a text, or a missing one. -/
def TextRow (rows : List (Option (Nat × Option Val))) : Prop :=
  ∃ j v, some (j, v) ∈ rows ∧ (v = none ∨ isText v = true)

theorem ATag.row {b : Nat} {as rows} (h : ATag b as rows) {a : ACh} (ha : a ∈ as) (hk : a.cls ≠ .null) :
    ∃ j, ∀ v ∈ a.cells, some (j, v) ∈ rows := by
  induction h with
  | nil => simp at ha
  | @cons b c as j rest _ _ ih =>
    rcases List.mem_cons.mp ha with rfl | ha
    · exact ⟨j, fun v hv => List.mem_append_left _ (mem_inRun.mpr ⟨hk, rfl, hv⟩)⟩
    · obtain ⟨i, hi⟩ := ih ha
      exact ⟨i, fun v hv => List.mem_append_right _ (hi v hv)⟩

theorem concatenate_runs (env : Env) (o : ConcatOpts) {cs : List Chunk} {rows : List (Option (Nat × Option Val))} {b : Nat}
    (h : Tagged (fun _ _ => True) b cs rows)
    (hi : o.confDt = true → (heldCells rows).any isTs = true → TextRow rows → ∀ c ∈ cs, c.NoGap ∧ c.Resolved) (off len : Nat) (m : Option (List Bool)) (hm : SomeRow len m) :
    (concatenate env o cs off len m).2 = .ok (fetchedHeld env o (pickRows rows off len m)) := by
  obtain ⟨t, ht0, hc⟩ := takeOver_tagged (fun _ => ⟨fun _ _ _ _ _ => trivial, fun _ => trivial⟩) h off len m (by rintro rfl; exact hm)
  have hw : (off : Int) ≠ 0 ∨ (len : Int) ≠ 0 ∨ m.isSome := by
    cases m with
    | none => exact .inr (.inl (by have : 0 < len := hm; omega))
    | some m => exact .inr (.inr rfl)
  obtain ⟨rs, hrs, hcells⟩ := hc.column.runs
  obtain ⟨as, ha, har, e⟩ := concatenate_taken env o hw ht0 hrs
  have hat := hc.atag ha
  have hflat : as.flatMap ACh.cells = heldCells (pickRows rows off len m) := by rw [← hcells, ← har, runs_cells]
  have hts : (heldCells (pickRows rows off len m)).any isTs = true → (heldCells rows).any isTs = true := by
    intro h
    rw [List.any_eq_true] at h ⊢
    obtain ⟨v, hv, e⟩ := h
    obtain ⟨r, hr, rfl⟩ := List.mem_map.mp hv
    cases r with
    | none => simp [isTs] at e
    | some r => exact ⟨_, List.mem_map_of_mem (f := fun r : Option (Nat × Option Val) => r.bind (·.2)) (pickRows_mem hr), e⟩
  have hne : as ≠ [] := by
    rintro rfl
    have hl := congrArg List.length hflat
    simp only [heldCells, List.length_map, pickRows_length] at hl
    cases m with
    | none => simp at hl; have : 0 < len := hm; omega
    | some m => simp at hl; exact hm (by omega)
  have hsome : ∀ a ∈ as, a.cells ≠ [] := by
    have hsz := takeOver_size ht0
    intro a hmem
    have hh : ∀ (c : List Chunk) (rs : Runs) (as : List ACh), HoldsRuns c rs → List.Forall₂ Abs c as →
        as.map ACh.run = rs → (∀ x ∈ c, x.size ≠ 0) → ∀ a ∈ as, a.cells ≠ [] := by
      intro c rs as h1 h2 h3 h4
      induction h2 generalizing rs with
      | nil => simp
      | @cons x a c as hxa _ ih =>
        subst h3
        cases h1 with
        | cons hx hrest =>
          intro b hb
          rcases List.mem_cons.mp hb with rfl | hb
          · intro h0
            have := hx.2
            simp only [ACh.run, h0, List.length_nil] at this
            exact h4 x (by simp) this
          · exact ih _ hrest rfl (fun y hy => h4 y (by simp [hy])) b hb
    exact hh _ _ _ hrs ha har hsz a hmem
  rw [e, aConcat_runs env o hat hne hsome]
  intro hd ht a hmem
  by_cases htx : TextRow rows
  · have h1 := hi hd (hts ht) htx
    exact forall2_left (P := Chunk.Resolved) (Q := fun a => ∀ l, a ≠ .str l true) ha
        (takeOver_pred resolved_pred (fun c hc => (h1 c hc).2) ht0) (fun _ _ hp hab => Resolved.notRaw hp hab) a hmem
  · have hno : ∀ l r, a ≠ .str l r := by
      rintro l r rfl
      refine htx ?_
      obtain ⟨j, hj⟩ := hat.row hmem (by simp [ACh.cls])
      have hc := hsome _ hmem
      cases l with
      | nil => exact absurd rfl hc
      | cons x l =>
        refine ⟨j, x.map Val.str, pickRows_mem (hj _ (by simp [ACh.cells])), ?_⟩
        cases x with
        | none => exact .inl rfl
        | some x => exact .inr rfl
    exact fun l => hno l true

theorem full.noGap {c : Chunk} {a : ACh} (ha : Abs c a) (h : a.full) : c.NoGap := by
  cases ha with
  | str l sz sr =>
    simp only [ACh.full, List.all_eq_true] at h
    simp only [Chunk.NoGap]
    intro hn
    simpa using h _ hn
  | shared l sz sr vs hv =>
    simp only [ACh.full, List.all_eq_true] at h
    simp only [Chunk.NoGap]
    intro i hi he
    have : sr[i]? ∈ vs.map some := by rw [← hv]; exact List.mem_map_of_mem hi
    obtain ⟨x, hx, hx2⟩ := List.mem_map.mp this
    rw [he] at hx2
    injection hx2 with hx2
    subst hx2
    simpa using h _ hx
  | _ => trivial

theorem looked_full (a : ACh) : a.looked.full = a.full := by cases a <;> rfl

theorem Chunk.Keeps.noGap {c c' : Chunk} {k vs} (hc : c.Holds k vs) (h : c.Keeps c') (hg : c.NoGap) : c'.NoGap := by
  obtain ⟨a, ha, _⟩ := hc.1.abs
  obtain ⟨a', ha', e, _⟩ := h.2 a ha
  refine full.noGap ha' ?_
  rw [← looked_full, e, looked_full]
  exact NoGap.full hg ha

theorem Column.keeps {cs cs' : List Chunk} {col} (h : Column cs col) (hk : List.Forall₂ Chunk.Keeps cs cs') :
    Column cs' col := by
  induction h generalizing cs' with
  | nil => cases hk; exact .nil
  | cons h _ ih => cases hk with | cons h1 h2 => exact .cons (h1.same h) (ih h2)

theorem Tagged.keeps {b : Nat} {cs cs' : List Chunk} {rows} (h : Tagged (fun _ _ => True) b cs rows)
    (hk : List.Forall₂ Chunk.Keeps cs cs') : Tagged (fun _ _ => True) b cs' rows := by
  induction h generalizing cs' with
  | nil => cases hk; exact .nil
  | cons h hb _ _ ih => cases hk with | cons h1 h2 => exact .cons (h1.same h) hb trivial (ih h2)

theorem Column.keeps_noGap {cs cs' : List Chunk} {col} (h : Column cs col) (hk : List.Forall₂ Chunk.Keeps cs cs')
    (hg : ∀ c ∈ cs, c.NoGap) : ∀ c ∈ cs', c.NoGap := by
  induction h generalizing cs' with
  | nil => cases hk; simp
  | cons h _ ih =>
    cases hk with
    | cons h1 h2 =>
      intro x hx
      rcases List.mem_cons.mp hx with rfl | hx
      · exact h1.noGap h (hg _ (by simp))
      · exact ih h2 (fun c hc => hg c (by simp [hc])) x hx

theorem Column.keeps_resolved {cs cs' : List Chunk} {col} (h : Column cs col) (hk : List.Forall₂ Chunk.Keeps cs cs')
    (hg : ∀ c ∈ cs, c.Resolved) : ∀ c ∈ cs', c.Resolved := by
  induction h generalizing cs' with
  | nil => cases hk; simp
  | cons h _ ih =>
    cases hk with
    | cons h1 h2 =>
      intro x hx
      rcases List.mem_cons.mp hx with rfl | hx
      · obtain ⟨a, ha, _⟩ := h.1.abs
        obtain ⟨a', ha', _, r⟩ := h1.2 a ha
        exact notRaw.resolved ha' (r (Resolved.notRaw (hg _ (by simp)) ha))
      · exact ih h2 (fun c hc => hg c (by simp [hc])) x hx

/-- Reading the series gives the view, and leaves it so. -/
structure Series.Stands (env : Env) (o : ConcatOpts) (V : View) (s : Series) : Prop where
  state : ∃ s' rows, s.flush env = .ok s' ∧ Tagged (fun _ _ => True) 0 s'.chunks rows ∧ s'.chunks ≠ [] ∧
    s'.cur = [] ∧ s'.opts = s.opts ∧
    (o.confDt = true → (heldCells rows).any isTs = true → TextRow rows → ∀ c ∈ s'.chunks, c.NoGap ∧ c.Resolved) ∧
    ∀ off len m, V off len m = fetchedHeld env o (pickRows rows off len m)
  opts : s.opts = o

theorem Series.Stands.fetch {env : Env} {p : ConcatOpts} {V : View} {s : Series} (h : s.Stands env p V)
    (off len : Nat) (m : Option (List Bool)) (hm : SomeRow len m) :
    ∃ s', s.toArrow env off len m = (s', .ok (.arr (V off len m))) ∧ s'.Stands env p V := by
  obtain ⟨s1, rows, hf, hc, hne, hcur, ho, hi, hV⟩ := h.state
  have hw : (off : Int) ≠ 0 ∨ (len : Int) ≠ 0 ∨ m.isSome := by
    cases m with
    | none => exact .inr (.inl (by have : 0 < len := hm; omega))
    | some m => exact .inr (.inr rfl)
  have e := concatenate_runs env s1.opts hc (by rw [ho, h.opts]; exact hi) off len m hm
  have hk := concatenate_keeps_window env s1.opts s1.chunks hc.column.sound off len m hw
  unfold Series.toArrow
  rw [hf]
  simp only [List.isEmpty_iff, hne, if_false]
  rw [hV]
  have hop : s1.opts = p := ho.trans h.opts
  rw [hop] at e hk ⊢
  generalize hcc : concatenate env p s1.chunks (off : Int) (len : Int) m = r at e hk
  obtain ⟨cs', r2⟩ := r
  simp only at e hk
  subst e
  refine ⟨{ s1 with chunks := cs' }, by rw [← hop], ?_, hop⟩
  refine ⟨{ s1 with chunks := cs' }, rows, ?_, hc.keeps hk, ?_, hcur, rfl,
    fun h1 h2 h3 c hc' => ⟨hc.column.keeps_noGap hk (fun c h => (hi h1 h2 h3 c h).1) c hc',
      hc.column.keeps_resolved hk (fun c h => (hi h1 h2 h3 c h).2) c hc'⟩, hV⟩
  · unfold Series.flush
    rw [if_pos (by simp [hcur])]
  · intro h0
    simp only at h0
    have hl := hk.length_eq
    rw [h0] at hl
    exact hne (List.length_eq_zero_iff.mp hl)

/-- What is read has the length asked for; its cells are texts if its type says so. -/
theorem Series.Stands.view {env : Env} {p : ConcatOpts} {V : View} {s : Series} (h : s.Stands env p V)
    (off len : Nat) (m : Option (List Bool)) : ((V off len m).dtype = .utf8 → ∀ v, some v ∈ (V off len m).vals →
      ∃ x, v = .str x) ∧ (V off len none).vals.length = len := by
  obtain ⟨s1, rows, hf, hc, hne, hcur, ho, hi, hV⟩ := h.state
  constructor
  · rw [hV]
    intro ht v hv
    simp only [fetchedHeld] at ht hv
    rw [ht] at hv
    obtain ⟨y, _, hy⟩ := List.mem_map.mp hv
    cases hj : y.join with
    | none => rw [hj] at hy; simp at hy
    | some y => rw [hj] at hy; simp only [Option.map_some, Option.some.injEq, rendered] at hy; exact ⟨_, hy.symm⟩
  · rw [hV, fetchedHeld, List.length_map]
    have : ∀ rows : List (Option (Nat × Option Val)), (resolvedHeld env p rows).length = rows.length := by
      intro rows
      unfold resolvedHeld
      split
      · split <;> simp
      · split <;> simp
    rw [this, pickRows_length]

theorem PresentCells.valid {env : Env} {b : Bool} {shared : List (Option Str)} {cs : List Cell}
    (h : PresentCells env b shared cs) : ValidCells env b shared cs := by
  intro c hc
  obtain ⟨v, hv⟩ := h c hc
  rw [hv]; rfl

theorem holds_noGap {c : Chunk} {k vs} (h : c.Holds k vs) (hn : none ∉ vs) : c.NoGap := by
  obtain ⟨a, ha, _, hv⟩ := h.1.abs
  refine full.noGap ha ?_
  cases a with
  | str l r =>
    simp only [ACh.full, List.all_eq_true]
    intro x hx
    cases x with
    | some => rfl
    | none => exact absurd (by rw [← hv]; simpa [ACh.cells] using hx) hn
  | _ => rfl

theorem stretches_noGap {env : Env} {b : Bool} {shared : List (Option Str)} {gs : List Stretch} {cs : List Chunk}
    (h : List.Forall₂ (Stretch.Is env b shared) gs cs)
    (hv : ∀ x v, some (x, v) ∈ gs.flatMap Stretch.rows → ∃ y, rawValue env b shared x v = some (some y)) :
    ∀ c ∈ cs, c.NoGap := by
  induction h with
  | nil => simp
  | @cons g c gs cs hg _ ih =>
    have ih := ih fun x v hm => hv x v (by rw [List.flatMap_cons]; exact List.mem_append_right _ hm)
    intro d hd
    rcases List.mem_cons.mp hd with rfl | hd
    · cases g with
      | gap n => obtain ⟨_, rfl⟩ := hg; trivial
      | run x vals =>
        obtain ⟨hne, hm⟩ := hg
        have hall : ∀ v ∈ vals, ∃ y, rawValue env b shared x v = some (some y) := fun v hvv => hv x v (by
          rw [List.flatMap_cons]
          exact List.mem_append_left _ (List.mem_map_of_mem (f := fun v => some (x, v)) hvv))
        obtain ⟨c', h1, h2⟩ := run_holds (env := env) (b := b) (shared := shared) (x := x) hne (fun v hvv => by
          obtain ⟨y, hy⟩ := hall v hvv
          rw [hy]; rfl)
        rw [hm] at h1
        injection h1 with h1
        subst h1
        refine holds_noGap h2 ?_
        intro hn
        obtain ⟨v, hvv, he⟩ := List.mem_map.mp hn
        obtain ⟨y, hy⟩ := hall v hvv
        simp [rowValue, hy] at he
    · exact ih d hd

theorem makeChunk_resolved {env : Env} {b : Bool} {shared : List (Option Str)} {x : Nat} {vals : List Raw} {c : Chunk}
    (h : makeChunk env b shared x vals = .ok c) (hx : (hasBit x TYPE_STRING && hasBit x REPR_SHARED) = false) :
    c.Resolved := by
  have hx1 : ∀ sh, Chunk.xlsxStrings env vals false sh = .ok c → c.Resolved := by
    intro sh h
    simp only [Chunk.xlsxStrings, Bool.false_eq_true, if_false] at h
    split at h
    · injection h with h; subst h; intro l; simp
    · simp at h
  have hb1 : ∀ sh, Chunk.xlsbStrings vals false sh = .ok c → c.Resolved := by
    intro sh h
    simp only [Chunk.xlsbStrings, Bool.false_eq_true, if_false] at h
    split at h
    · injection h with h; subst h; intro l; simp
    · simp at h
  unfold makeChunk at h
  cases hs : hasBit x TYPE_STRING with
  | true =>
    rw [hs, Bool.true_and] at hx
    rw [hs, hx] at h
    cases b with
    | true => exact hb1 shared (by simpa using h)
    | false => exact hx1 shared (by simpa using h)
  | false =>
    rw [hs] at h
    cases b with
    | true =>
      simp only [Bool.false_eq_true, if_false, if_true, Chunk.xlsbNumeric] at h
      split at h
      · split at h
        · injection h with h; subst h; intro l; simp
        · simp at h
      · split at h
        · split at h
          · injection h with h; subst h; intro l; simp
          · simp at h
        · split at h
          · injection h with h; subst h; intro l; simp
          · simp at h
    | false =>
      simp only [Bool.false_eq_true, if_false, Chunk.xlsxNumeric] at h
      split at h
      · injection h with h; subst h; intro l; simp
      · exact hx1 [] h
      · simp at h

theorem rawValue_tag {env : Env} {b : Bool} {shared : List (Option Str)} {x : Nat} {v : Raw} {y : Option Val}
    (h : rawValue env b shared x v = some y) (hx : x ≠ 0x11) :
    (hasBit x TYPE_STRING && hasBit x REPR_SHARED) = false := by
  have key : x = 0x18 ∨ x = 0x21 ∨ x = 0x25 ∨ x = 0x22 ∨ x = 0x28 ∨ x = 0x24 ∨ x = 0x20 →
      (hasBit x TYPE_STRING && hasBit x REPR_SHARED) = false := by
    rintro (rfl | rfl | rfl | rfl | rfl | rfl | rfl) <;> rfl
  refine key ?_
  unfold rawValue at h
  cases b with
  | true =>
    simp only [if_true] at h
    cases v with
    | text s =>
      simp only [xlsbValue] at h
      split at h
      · simp [*]
      · simp at h
    | bytes b =>
      simp only [xlsbValue, hx, false_and, if_false] at h
      split_ifs at h <;> simp_all
  | false =>
    simp only [Bool.false_eq_true, if_false] at h
    cases v with
    | bytes b => simp [xlsxValue] at h
    | text s =>
      simp only [xlsxValue, hx, if_false] at h
      split_ifs at h <;> simp_all

theorem stretches_resolved {env : Env} {b : Bool} {shared : List (Option Str)} {gs : List Stretch} {cs : List Chunk}
    (h : List.Forall₂ (Stretch.Is env b shared) gs cs)
    (hv : ∀ x v, some (x, v) ∈ gs.flatMap Stretch.rows → (hasBit x TYPE_STRING && hasBit x REPR_SHARED) = false) :
    ∀ c ∈ cs, c.Resolved := by
  induction h with
  | nil => simp
  | @cons g c gs cs hg _ ih =>
    have ih := ih fun x v hm => hv x v (by rw [List.flatMap_cons]; exact List.mem_append_right _ hm)
    intro d hd
    rcases List.mem_cons.mp hd with rfl | hd
    · cases g with
      | gap n => obtain ⟨_, rfl⟩ := hg; intro l; simp [Chunk.nulls]
      | run x vals =>
        obtain ⟨hne, hm⟩ := hg
        cases vals with
        | nil => exact absurd rfl hne
        | cons v vals =>
          refine makeChunk_resolved hm (hv x v ?_)
          rw [List.flatMap_cons]
          exact List.mem_append_left _ (by simp [Stretch.rows])
    · exact ih d hd

theorem stretches_tagged {env : Env} {b : Bool} {shared : List (Option Str)} {gs : List Stretch} {cs : List Chunk}
    (h : List.Forall₂ (Stretch.Is env b shared) gs cs)
    (hv : ∀ x v, some (x, v) ∈ gs.flatMap Stretch.rows → (rawValue env b shared x v).isSome)
    (hch : (gs.map Stretch.tag).IsChain (· ≠ ·)) (n : Nat) (prev : Option (Option Nat))
    (hp : ∀ t ∈ (gs.map Stretch.tag).head?, prev ≠ some t) {P : Nat → Chunk → Prop} (hN : ∀ j k, P j (Chunk.nulls k))
    (hP : ∀ j x v vals c, makeChunk env b shared x vals = .ok c →
      (j, some (x, v)) ∈ (runNumbers n prev (gs.flatMap Stretch.rows)).zip (gs.flatMap Stretch.rows) → P j c) :
    Tagged P (n + 1) cs (List.zipWith (fun n r => r.map fun c => (n, (rawValue env b shared c.1 c.2).join))
      (runNumbers n prev (gs.flatMap Stretch.rows)) (gs.flatMap Stretch.rows)) := by
  induction h generalizing n prev with
  | nil => exact .nil
  | @cons g c gs cs hg _ ih =>
    rw [List.flatMap_cons]
    rw [List.map_cons, List.isChain_cons] at hch
    have hrows : ∀ r ∈ g.rows, r.map (·.1) = g.tag := by
      intro r hr
      cases g with
      | gap k => rw [List.eq_of_mem_replicate hr]; rfl
      | run x vals => obtain ⟨v, _, rfl⟩ := List.mem_map.mp hr; rfl
    have hgne : g.rows ≠ [] := by
      cases g with
      | gap k =>
        intro h0
        have := congrArg List.length h0
        simp [Stretch.rows] at this
        have := hg.1
        omega
      | run x vals => simpa [Stretch.rows] using hg.1
    have hnum := runNumbers_stretch g.tag (gs.flatMap Stretch.rows) g.rows n prev hgne (hp g.tag (by simp)) hrows
    rw [List.flatMap_cons, hnum] at hP
    have ih := ih (fun x v hm => hv x v (by rw [List.flatMap_cons]; exact List.mem_append_right _ hm)) hch.2 (n + 1)
      (some g.tag) (fun t ht => by
        intro he
        injection he with he
        exact hch.1 t ht he) (fun j x v vals c hm hz => hP j x v vals c hm (by
        rw [List.zip_append (by simp)]
        exact List.mem_append_right _ hz))
    rw [hnum, List.zipWith_append (by simp), zip_replicate]
    cases g with
    | gap k =>
      obtain ⟨_, rfl⟩ := hg
      have := Tagged.cons (c := Chunk.nulls k) (vs := List.replicate k none) (k := .null)
        ⟨Denotes.null k k [], by simp [Chunk.nulls]⟩ (le_refl _) (hN _ k) (ih.mono (b' := n + 1 + 1) (by omega))
      simpa [Stretch.rows, heldRow] using this
    | run x vals =>
      obtain ⟨hne, hm⟩ := hg
      obtain ⟨c', h1, h2⟩ := run_holds (env := env) (b := b) (shared := shared) (x := x) hne (fun v hvv => hv x v (by
        rw [List.flatMap_cons]
        exact List.mem_append_left _ (List.mem_map_of_mem (f := fun v => some (x, v)) hvv)))
      rw [hm] at h1
      injection h1 with h1
      subst h1
      have hpc : P (n + 1) c := by
        obtain ⟨v, vs, rfl⟩ := List.exists_cons_of_ne_nil hne
        refine hP (n + 1) x v _ c hm ?_
        rw [List.zip_append (by simp)]
        exact List.mem_append_left _ (by simp [Stretch.rows, List.replicate_succ])
      have := Tagged.cons h2 (le_refl _) hpc (ih.mono (b' := n + 1 + 1) (by omega))
      have hk : tagKind x ≠ .null := by unfold tagKind; split_ifs <;> simp
      simpa [Stretch.rows, Function.comp_def, heldRow, rowValue, hk] using this

theorem numbered_plain (env : Env) (b : Bool) (shared : List (Option Str)) (rows : List (Option (Nat × Raw))) :
    plainCells (numberedRows env b shared rows) = rows.map (rowValue env b shared) := by
  unfold numberedRows plainCells
  have key : ∀ (ns : List Nat) (rows : List (Option (Nat × Raw))), ns.length = rows.length →
      (List.zipWith (fun n r => (rowValue env b shared r).map (n, ·)) ns rows).map (Option.map (·.2)) =
        rows.map (rowValue env b shared) := by
    intro ns
    induction ns with
    | nil => intro rows h; cases rows with
      | nil => rfl
      | cons => simp at h
    | cons n ns ih =>
      intro rows h
      cases rows with
      | nil => simp at h
      | cons r rows =>
        rw [List.zipWith_cons_cons, List.map_cons, List.map_cons, ih rows (by simpa using h)]
        congr 1
        cases rowValue env b shared r <;> rfl
  exact key _ _ (runNumbers_length _ _ _)

theorem rawColumn_present {env : Env} {b : Bool} {shared : List (Option Str)} {cs : List Cell}
    (h : PresentCells env b shared cs) {x : Nat} {v : Raw} (hm : some (x, v) ∈ rawColumn cs) :
    ∃ y, rawValue env b shared x v = some (some y) := by
  unfold rawColumn at hm
  obtain ⟨r, _, hr⟩ := List.mem_map.mp hm
  obtain ⟨c, hc, rfl, rfl⟩ := rawAt_mem hr
  exact h c hc

theorem rawValue_inline {env : Env} {b : Bool} {shared : List (Option Str)} {x : Nat} {v : Raw} {y : Option Val}
    (h : rawValue env b shared x v = some y) (hx : x ≠ 0x11) : ∃ w, y = some w := by
  unfold rawValue at h
  cases b with
  | true =>
    simp only [if_true] at h
    cases v with
    | text s =>
      simp only [xlsbValue] at h
      split at h
      · injection h with h; exact ⟨_, h.symm⟩
      · simp at h
    | bytes b =>
      simp only [xlsbValue, hx, false_and, if_false] at h
      split_ifs at h <;> exact ⟨_, (Option.some.inj h).symm⟩
  | false =>
    simp only [Bool.false_eq_true, if_false] at h
    cases v with
    | bytes b => simp [xlsxValue] at h
    | text s =>
      simp only [xlsxValue, hx, if_false] at h
      split_ifs at h
      · exact ⟨_, (Option.some.inj h).symm⟩
      · cases hf : env.pyFloat s with
        | none => rw [hf] at h; simp at h
        | some x => rw [hf] at h; exact ⟨_, (Option.some.inj h).symm⟩
      · cases hf : env.pyFloat s with
        | none => rw [hf] at h; simp at h
        | some x => rw [hf] at h; exact ⟨_, (Option.some.inj h).symm⟩

theorem held_cells (env : Env) (b : Bool) (shared : List (Option Str)) (rows : List (Option (Nat × Raw))) :
    heldCells (heldRows env b shared rows) = rows.map (rowValue env b shared) := by
  unfold heldRows heldCells
  have key : ∀ (ns : List Nat) (rows : List (Option (Nat × Raw))), ns.length = rows.length →
      (List.zipWith (fun n r => r.map fun c => (n, (rawValue env b shared c.1 c.2).join)) ns rows).map
        (fun r => r.bind (·.2)) = rows.map (rowValue env b shared) := by
    intro ns
    induction ns with
    | nil => intro rows h; cases rows with
      | nil => rfl
      | cons => simp at h
    | cons n ns ih =>
      intro rows h
      cases rows with
      | nil => simp at h
      | cons r rows =>
        rw [List.zipWith_cons_cons, List.map_cons, List.map_cons, ih rows (by simpa using h)]
        congr 1
        cases r <;> rfl
  exact key _ _ (runNumbers_length _ _ _)

theorem heldRows_full {env : Env} {b : Bool} {shared : List (Option Str)} {rows : List (Option (Nat × Raw))}
    (h : ∀ x v, some (x, v) ∈ rows → ∃ y, rawValue env b shared x v = some (some y)) :
    heldRows env b shared rows = fullRows (numberedRows env b shared rows) := by
  unfold heldRows fullRows numberedRows
  have key : ∀ (ns : List Nat) (rows : List (Option (Nat × Raw))),
      (∀ x v, some (x, v) ∈ rows → ∃ y, rawValue env b shared x v = some (some y)) →
      List.zipWith (fun n r => r.map fun c => (n, (rawValue env b shared c.1 c.2).join)) ns rows =
        (List.zipWith (fun n r => (rowValue env b shared r).map (n, ·)) ns rows).map
          (Option.map fun r => (r.1, some r.2)) := by
    intro ns
    induction ns with
    | nil => intro rows _; rfl
    | cons n ns ih =>
      intro rows h
      cases rows with
      | nil => rfl
      | cons r rows =>
        rw [List.zipWith_cons_cons, List.zipWith_cons_cons, List.map_cons,
          ih rows fun x v hm => h x v (by simp [hm])]
        congr 1
        cases r with
        | none => rfl
        | some c =>
          obtain ⟨y, hy⟩ := h c.1 c.2 (by simp)
          simp [rowValue, hy]
  exact key _ _ h

/-- Adding valid cells to a fresh column. -/
theorem built_held (env : Env) (b : Bool) (shared : List (Option Str)) (o : ConcatOpts) (cs : List Cell)
    (inl : Bool) (hr : HeldDatable o inl (heldRows env b shared (rawColumn cs)))
    (hi : inl = true → ∀ c ∈ cs, c.xdt ≠ 0x11) (hv : ValidCells env b shared cs) (hne : cs ≠ []) :
    ∃ s, Series.addAll env cs (freshSeries shared b o) = .ok s ∧
      s.Stands env o (fun off len m => fetchedHeld env o (pickRows (heldRows env b shared (rawColumn cs)) off len m)) ∧
      s.len = (height cs : Int) - (match cs.head? with | none => -1 | some c => (c.row : Int)) := by
  obtain ⟨s, s', h1, h2, h3, h4, h5⟩ := built_column env b shared o cs hv
  obtain ⟨i1, k1⟩ := addAll_inv cs (fresh_inv env shared b o) h1
  rw [List.nil_append] at i1
  obtain ⟨⟨gs, g1, g2, gch, _⟩, g3, _⟩ := flush_inv i1 h2
  have hb : s.binary = b := k1.binary
  have hsh : s.shared = shared := k1.shared
  have hop : s.opts = o := k1.opts
  rw [hb, hsh] at g1
  have hT := stretches_tagged g1 (fun x v hm => rawColumn_valid hv (by rw [← g2]; exact hm)) gch 0 none (by simp)
    (P := fun _ _ => True) (fun _ _ => trivial) (fun _ _ _ _ _ _ _ => trivial)
  rw [g2] at hT
  refine ⟨s, h1, ⟨⟨s', _, h2, hT.mono (by omega), fun hc => hne (h5.mp hc), g3, h4.trans hop.symm, ?_,
    fun _ _ _ => rfl⟩, hop⟩, ?_⟩
  · intro hd ht htx
    have h : inl = true := by
      rcases hr hd ht with h | h
      · obtain ⟨j, v, hm, hh⟩ := htx
        obtain ⟨k1, k2⟩ := h j v hm
        rcases hh with hh | hh
        · exact absurd hh k1
        · rw [k2] at hh; cases hh
      · exact h
    have hin : ∀ x v, some (x, v) ∈ gs.flatMap Stretch.rows → x ≠ 0x11 ∧ ∃ y, rawValue env b shared x v = some (some y) := by
      intro x v hm
      rw [g2] at hm
      obtain ⟨y, hy⟩ := Option.isSome_iff_exists.mp (rawColumn_valid hv hm)
      have hx : x ≠ 0x11 := by
        unfold rawColumn at hm
        obtain ⟨r, _, hr⟩ := List.mem_map.mp hm
        obtain ⟨c, hc, rfl, rfl⟩ := rawAt_mem hr
        exact hi h c hc
      obtain ⟨w, rfl⟩ := rawValue_inline hy hx
      exact ⟨hx, w, hy⟩
    have n1 := stretches_noGap g1 fun x v hm => (hin x v hm).2
    have n2 := stretches_resolved g1 fun x v hm => by
      obtain ⟨hx, y, hy⟩ := hin x v hm
      exact rawValue_tag hy hx
    exact fun c hc => ⟨n1 c hc, n2 c hc⟩
  · unfold Series.len
    rw [i1.eRow, i1.sRow]
    cases cs with
    | nil => exact absurd rfl hne
    | cons c cs => simp only [List.head?_cons]; omega

theorem Datable.held {env : Env} {b : Bool} {shared : List (Option Str)} {o : ConcatOpts} {inl : Bool} {cells : List Cell}
    (hv : PresentCells env b shared cells) (hr : Datable o inl ((rawColumn cells).map (rowValue env b shared))) :
    HeldDatable o inl (heldRows env b shared (rawColumn cells)) := by
  intro hd ht
  rw [held_cells] at ht
  refine (hr hd ht).imp (fun h j v hm => ?_) id
  have hv0 : v ≠ none := by
    rintro rfl
    rw [heldRows_full fun x v hm => rawColumn_present hv hm] at hm
    exact full_missing hm
  refine ⟨hv0, ?_⟩
  rw [List.any_eq_false] at h
  have := h v (by
    rw [← held_cells]
    exact List.mem_map_of_mem (f := fun r : Option (Nat × Option Val) => r.bind (·.2)) hm)
  simpa using this

/-- Adding present cells to a fresh column. -/
theorem built_stands (env : Env) (b : Bool) (shared : List (Option Str)) (o : ConcatOpts) (cs : List Cell)
    (inl : Bool) (hr : Datable o inl ((rawColumn cs).map (rowValue env b shared)))
    (hi : inl = true → ∀ c ∈ cs, c.xdt ≠ 0x11) (hv : PresentCells env b shared cs) (hne : cs ≠ []) :
    ∃ s, Series.addAll env cs (freshSeries shared b o) = .ok s ∧
      s.Stands env o (fun off len m => fetchedRuns env o (pickRows (numberedRows env b shared (rawColumn cs)) off len m)) ∧
      s.len = (height cs : Int) - (match cs.head? with | none => -1 | some c => (c.row : Int)) := by
  have hfull := heldRows_full fun x v hm => rawColumn_present hv hm
  have e : (fun (off len : Nat) (m : Option (List Bool)) =>
      fetchedRuns env o (pickRows (numberedRows env b shared (rawColumn cs)) off len m)) =
      fun off len m => fetchedHeld env o (pickRows (heldRows env b shared (rawColumn cs)) off len m) := by
    funext off len m
    rw [hfull, pickRows_full, fetchedHeld_full]
  rw [e]
  exact built_held env b shared o cs inl (hr.held hv) hi hv.valid hne

end Rxls
