import Verif.Lemmas.Options
import Verif.Props.Book

/-!
# Nothing to convert

`datetime_formats` and `conflict_resolve` are about columns of several sorts, `float_precision` is about numbers.  Where
there is nothing of the kind, the options change nothing in the table: not its names, types, rows or values, and not the
exception if the read fails.
-/

namespace Rxls

theorem toArrow_with {o' : ConcatOpts} (env : Env) (s : Series) (off len : Int) (idx : Option (List Bool))
    (h : ∀ s', s.flush env = .ok s' → concatenate env o' s'.chunks off len idx = concatenate env s.opts s'.chunks off len idx) :
    (s.withOpts o').toArrow env off len idx =
      ((s.toArrow env off len idx).1.withOpts o', (s.toArrow env off len idx).2) := by
  unfold Series.toArrow
  rw [flush_with]
  have ho : ∀ s', s.flush env = .ok s' → s'.opts = s.opts := by
    intro s' e
    unfold Series.flush Series.pull at e
    split at e
    · injection e with e; rw [e]
    · split at e
      · cases e
      · injection e with e; rw [← e]
  cases hs : s.flush env with
  | error e => rfl
  | ok s' =>
    have h1 := h s' hs
    have h2 := ho s' hs
    simp only [Except.map]
    show (if s'.chunks.isEmpty then _ else _) = _
    split
    · rfl
    · show (match concatenate env o' s'.chunks off len idx with | (cs, .ok a) => _ | (cs, .error e) => _) = _
      rw [h1, h2]
      cases hc : concatenate env s.opts s'.chunks off len idx with
      | mk cs r => cases r <;> rfl

theorem flush_opts {env : Env} {s s' : Series} (e : s.flush env = .ok s') : s'.opts = s.opts := by
  unfold Series.flush Series.pull at e
  split at e
  · injection e with e; rw [e]
  · split at e
    · cases e
    · injection e with e; rw [← e]

theorem add_opts {env : Env} {s s' : Series} {c : Cell} (e : s.add env c = .ok s') : s'.opts = s.opts := by
  unfold Series.add at e
  split at e
  · injection e with e; rw [e]
  · have g : ∀ x, s.gap env c.row = .ok x → x.opts = s.opts := by
      intro x hx
      unfold Series.gap at hx
      split at hx
      · cases hf : s.flush env with
        | error e => rw [hf] at hx; cases hx
        | ok y => rw [hf] at hx; injection hx with hx; rw [← hx]; have := flush_opts hf; exact this
      · injection hx with hx; rw [hx]
    cases hg : s.gap env c.row with
    | error e' => rw [hg] at e; cases e
    | ok x =>
      rw [hg] at e
      simp only at e
      cases hr : x.retype env c.xdt with
      | error e' => rw [hr] at e; cases e
      | ok y =>
        rw [hr] at e
        injection e with e
        rw [← e, ← g x hg]
        unfold Series.retype at hr
        split at hr
        · cases hf : x.flush env with
          | error e => rw [hf] at hr; cases hr
          | ok z => rw [hf] at hr; injection hr with hr; rw [← hr]; have := flush_opts hf; exact this
        · injection hr with hr; rw [hr]

/-! ## Formats -/

theorem readCells_formats {A D : Type} (env : Env) (lib : Lib A D) (search : Str → Option (Str → Bool))
    (reMatch : Str → Str → Py Bool) (args : ReadArgs D) {o o' : ConcatOpts} (h1 : o.confDt = false) (h2 : o'.confDt = false)
    (h3 : o.confNum = o'.confNum) (h4 : o.prec = o'.prec) (shared : List (Option Str)) (b : Bool) (cells : List Cell) :
    readCells env lib search reMatch args { shared := shared, binary := b, opts := o' } cells =
      readCells env lib search reMatch args { shared := shared, binary := b, opts := o } cells := by
  refine readCells_blind (o' := o') (I := fun _ s => s.opts = o) (fresh := { shared := shared, binary := b, opts := o })
    ?_ lib search reMatch args (fun _ => rfl) ?_
  · intro off len idx k s hs
    refine ⟨toArrow_with env s off len idx fun s' _ => ?_, ?_⟩
    · rw [hs]; exact (concatenate_formats env h1 h2 h3 h4 _ _ _ _).symm
    · simp only
      unfold Series.toArrow
      cases hf : s.flush env with
      | error e => exact hs
      | ok s' =>
        have := flush_opts hf
        simp only
        split
        · rw [this]; exact hs
        · cases concatenate env s'.opts s'.chunks off len idx with
          | mk cs r => cases r <;> (simp only; rw [this]; exact hs)
  · intro c _ s s' hs e
    rw [add_opts e]; exact hs

/-- `datetime_formats` has no effect unless `conflict_resolve` is `"temporal"` or `"all"`: any file, any other arguments. -/
theorem C112_formats {A D : Type} (env : Env) (lib : Lib A D) (search : Str → Option (Str → Bool))
    (reMatch : Str → Str → Py Bool) (toInt : Str → Option Int) (a : FileArgs D) (formats : FormatsArg) (p : Package)
    (h1 : a.conflict ≠ strTemporal) (h2 : a.conflict ≠ strAll) :
    readFile env lib search reMatch toInt { a with formats := formats } p = readFile env lib search reMatch toInt a p := by
  have hc : ∀ f, (concatOpts a.conflict f a.precision).confDt = false := by
    intro f
    simp only [concatOpts, List.contains_cons, List.contains_nil, Bool.or_false, Bool.or_eq_false_iff]
    exact ⟨beq_eq_false_iff_ne.mpr h1, beq_eq_false_iff_ne.mpr h2⟩
  have key : ∀ (args : ReadArgs D) shared b cells,
      readCells env lib search reMatch args
        { shared := shared, binary := b, opts := concatOpts a.conflict formats a.precision } cells =
      readCells env lib search reMatch args
        { shared := shared, binary := b, opts := concatOpts a.conflict a.formats a.precision } cells :=
    fun args shared b cells => readCells_formats env lib search reMatch args (hc a.formats) (hc formats) rfl rfl shared b cells
  unfold readFile
  cases fileKind p.names with
  | error e => rfl
  | ok k =>
    cases k with
    | xlsx => simp only [readXlsx, key]
    | xlsb => simp only [readXlsb, key]

/-! ## Columns of one sort -/

/-- The class of chunks of a sort. -/
def Sort3.cls : Sort3 → Cls
  | .text => .utf8
  | .moment => .temp
  | .number => .nums

/-- A value that a column of the sort can hold. -/
def RawFits (pyFloat : Str → Option F64) (binary : Bool) (k : Sort3) (r : Raw) : Prop :=
  binary = true ∨ k = .text ∨ ∃ s x, r = .text s ∧ pyFloat s = some x

theorem fromiterF8_fits (env : Env) : ∀ vals : List Raw, (∀ r ∈ vals, ∃ s x, r = Raw.text s ∧ env.pyFloat s = some x) →
    ∃ l, fromiterF8 env vals = .ok l
  | [], _ => ⟨_, rfl⟩
  | r :: rs, h => by
    obtain ⟨s, x, rfl, hx⟩ := h r (by simp)
    obtain ⟨l, hl⟩ := fromiterF8_fits env rs fun y hy => h y (by simp [hy])
    exact ⟨x :: l, by simp [fromiterF8, hx, hl]⟩

theorem makeChunk_cls {env : Env} {b : Bool} {shared : List (Option Str)} {xdt : Nat} {vals : List Raw} {c : Chunk}
    (hr : ∀ r ∈ vals, RawFits env.pyFloat b (sortOf xdt) r) (h : makeChunk env b shared xdt vals = .ok c) :
    c.cls = (sortOf xdt).cls := by
  have b1 : hasBit xdt TYPE_STRING = xdt.testBit 4 := hasBit_pow xdt 4
  have b2 : hasBit xdt REPR_TEMPORAL = xdt.testBit 2 := hasBit_pow xdt 2
  unfold makeChunk at h
  rw [b1, b2] at h
  unfold sortOf at hr ⊢
  split at h
  · rename_i hs
    rw [if_pos hs]
    split at h
    · unfold Chunk.xlsbStrings at h
      split at h
      · split at h
        · injection h with h; rw [← h]
          simp [Chunk.cls, Sort3.cls, hasBit, TYPE_STRING, REPR_SHARED, REPR_PREPARED]
        · cases h
      · split at h
        · injection h with h; rw [← h]
          simp [Chunk.cls, Sort3.cls, hasBit, TYPE_STRING, REPR_SHARED, REPR_PREPARED]
        · cases h
    · unfold Chunk.xlsxStrings at h
      split at h
      · split at h
        · injection h with h; rw [← h]
          simp [Chunk.cls, Sort3.cls, hasBit, TYPE_STRING, REPR_SHARED, REPR_PREPARED]
        · cases h
      · split at h
        · injection h with h; rw [← h]
          simp [Chunk.cls, Sort3.cls, hasBit, TYPE_STRING, REPR_SHARED, REPR_PREPARED]
        · cases h
  · rename_i hs
    rw [if_neg hs]
    rw [if_neg hs] at hr
    split at h
    · have key : ∀ d n, (⟨d, TYPE_NUMERIC ||| (if xdt.testBit 2 then REPR_TEMPORAL else 0) |||
          (if hasBit xdt REPR_RKNUMBER then REPR_RKNUMBER else 0) |||
          (if (xdt.testBit 2 || hasBit xdt REPR_RKNUMBER) then 0 else REPR_PREPARED), n, []⟩ : Chunk).cls =
          (if xdt.testBit 2 = true then Sort3.moment else Sort3.number).cls := by
        intro d n
        cases xdt.testBit 2 <;> cases hasBit xdt REPR_RKNUMBER <;>
          simp [Chunk.cls, Sort3.cls, hasBit, TYPE_STRING, TYPE_NUMERIC, REPR_SHARED, REPR_PREPARED, REPR_TEMPORAL, REPR_RKNUMBER]
      unfold Chunk.xlsbNumeric at h
      simp only at h
      generalize TYPE_NUMERIC ||| (if xdt.testBit 2 then REPR_TEMPORAL else 0) |||
        (if hasBit xdt REPR_RKNUMBER then REPR_RKNUMBER else 0) |||
        (if (xdt.testBit 2 || hasBit xdt REPR_RKNUMBER) then 0 else REPR_PREPARED) = typ at key h
      split at h
      · split at h
        · injection h with h; rw [← h]; exact key _ _
        · cases h
      · split at h
        · split at h
          · injection h with h; rw [← h]; exact key _ _
          · cases h
        · split at h
          · injection h with h; rw [← h]; exact key _ _
          · cases h
    · rename_i hb
      have hv : ∀ r ∈ vals, ∃ s x, r = Raw.text s ∧ env.pyFloat s = some x := by
        intro r hm
        rcases hr r hm with e | e | e
        · exact absurd e hb
        · split at e <;> cases e
        · exact e
      obtain ⟨l, hl⟩ := fromiterF8_fits env vals hv
      unfold Chunk.xlsxNumeric at h
      rw [hl] at h
      injection h with h
      rw [← h]
      cases xdt.testBit 2 <;>
        simp [Chunk.cls, Sort3.cls, hasBit, TYPE_STRING, TYPE_NUMERIC, REPR_SHARED, REPR_PREPARED, REPR_TEMPORAL, REPR_RKNUMBER]

/-- A column all of whose cells are of one sort. -/
structure OneSortCol (env : Env) (o : ConcatOpts) (b : Bool) (K : Int → Sort3) (k : Int) (s : Series) : Prop where
  opts : s.opts = o
  binary : s.binary = b
  chunks : ∀ c ∈ s.chunks, OfCls (K k).cls c
  cur : s.cur ≠ [] → sortOf s.xdtr = K k
  fits : ∀ r ∈ s.cur, RawFits env.pyFloat b (K k) r

variable {env : Env} {o o' : ConcatOpts} {b : Bool} {K : Int → Sort3} {k : Int}

theorem OneSortCol.flush {s s' : Series} (h : OneSortCol env o b K k s) (e : s.flush env = .ok s') :
    OneSortCol env o b K k s' ∧ (s'.cur = []) ∧ s'.eRow = s.eRow ∧ s'.sRow = s.sRow := by
  unfold Series.flush at e
  split at e
  · rename_i he
    injection e with e
    subst e
    exact ⟨h, by simpa using he, rfl, rfl⟩
  · rename_i he
    unfold Series.pull at e
    cases hc : makeChunk env s.binary s.shared s.xdtr s.cur with
    | error x => rw [hc] at e; cases e
    | ok c =>
      rw [hc] at e
      injection e with e
      subst e
      have hne : s.cur ≠ [] := by intro h0; rw [h0] at he; exact he rfl
      have hs := h.cur hne
      rw [h.binary] at hc
      have := makeChunk_cls (by rw [hs]; exact h.fits) hc
      rw [hs] at this
      refine ⟨⟨h.opts, h.binary, ?_, fun hh => absurd rfl hh, by simp⟩, rfl, rfl, rfl⟩
      intro x hx
      simp only [List.mem_append, List.mem_singleton] at hx
      rcases hx with (hx | hx) | rfl
      · exact h.chunks x hx
      · split at hx
        · rw [List.mem_singleton] at hx; subst hx; exact Or.inl rfl
        · cases hx
      · exact Or.inr this

theorem OneSortCol.add {s s' : Series} {c : Cell} (h : OneSortCol env o b K k s) (h1 : sortOf c.xdt = K k)
    (h2 : RawFits env.pyFloat b (K k) c.val) (e : s.add env c = .ok s') : OneSortCol env o b K k s' := by
  unfold Series.add at e
  split at e
  · injection e with e; rw [← e]; exact h
  · have g : ∀ x, s.gap env c.row = .ok x → OneSortCol env o b K k x := by
      intro x hx
      unfold Series.gap at hx
      split at hx
      · cases hf : s.flush env with
        | error e => rw [hf] at hx; cases hx
        | ok y =>
          rw [hf] at hx
          injection hx with hx
          obtain ⟨a, a2, -, -⟩ := h.flush hf
          rw [← hx]
          exact ⟨a.opts, a.binary, a.chunks, fun hh => absurd a2 hh, a.fits⟩
      · injection hx with hx; rw [← hx]; exact h
    cases hg : s.gap env c.row with
    | error e' => rw [hg] at e; cases e
    | ok x =>
      rw [hg] at e
      simp only at e
      have hx := g x hg
      cases hr : x.retype env c.xdt with
      | error e' => rw [hr] at e; cases e
      | ok y =>
        rw [hr] at e
        injection e with e
        have hy : OneSortCol env o b K k y ∧ y.xdtr = c.xdt := by
          unfold Series.retype at hr
          split at hr
          · cases hf : x.flush env with
            | error e => rw [hf] at hr; cases hr
            | ok z =>
              rw [hf] at hr
              injection hr with hr
              obtain ⟨a, a2, -, -⟩ := hx.flush hf
              rw [← hr]
              exact ⟨⟨a.opts, a.binary, a.chunks, fun hh => absurd a2 hh, a.fits⟩, rfl⟩
          · rename_i hn
            injection hr with hr
            rw [← hr]
            exact ⟨hx, by rw [ne_eq, not_not] at hn; exact hn.symm⟩
        obtain ⟨hy, hd⟩ := hy
        rw [← e]
        refine ⟨hy.opts, hy.binary, hy.chunks, fun _ => by simp only; rw [hd]; exact h1, ?_⟩
        intro r hm
        rcases List.mem_append.mp hm with hm | hm
        · exact hy.fits r hm
        · rw [List.mem_singleton] at hm; subst hm; exact h2

theorem oneSort_blind (hp : o.prec = o'.prec ∨ ∀ k, K k ≠ .number) : BlindArrow o' (OneSortCol env o b K) env := by
  intro off len idx k s hs
  have hp' : o.prec = o'.prec ∨ (K k).cls ≠ .nums := by
    rcases hp with hp | hp
    · exact Or.inl hp
    · right
      intro e
      have := hp k
      cases hk : K k <;> rw [hk] at e this <;> first | exact this rfl | cases e
  refine ⟨toArrow_with env s off len idx fun s' hf => ?_, ?_⟩
  · rw [hs.opts]
    exact (concatenate_plain env hp' (hs.flush hf).1.chunks off len idx).1.symm
  · simp only
    unfold Series.toArrow
    cases hf : s.flush env with
    | error e => exact hs
    | ok s' =>
      obtain ⟨a, a2, -, -⟩ := hs.flush hf
      simp only
      split
      · exact a
      · have := (concatenate_plain env hp' a.chunks off len idx).2
        rw [a.opts]
        cases hc : concatenate env o s'.chunks off len idx with
        | mk cs r =>
          rw [hc] at this
          cases r <;> exact ⟨rfl, a.binary, this, a.cur, a.fits⟩

/-- Cells of one sort in each column: the options do not matter, except `float_precision` for numbers. -/
theorem readCells_oneSort {A D : Type} (env : Env) (lib : Lib A D) (search : Str → Option (Str → Bool))
    (reMatch : Str → Str → Py Bool) (args : ReadArgs D) {o o' : ConcatOpts} {cells : List Cell} (h : OneSort cells)
    (b : Bool) (hn : b = true ∨ ∀ c ∈ cells, Numeral env.pyFloat c)
    (hp : o.prec = o'.prec ∨ ∀ c ∈ cells, sortOf c.xdt ≠ .number) (shared : List (Option Str)) :
    readCells env lib search reMatch args { shared := shared, binary := b, opts := o' } cells =
      readCells env lib search reMatch args { shared := shared, binary := b, opts := o } cells := by
  let K : Int → Sort3 := fun k =>
    match cells.find? fun c => c.col = k with
    | some c => sortOf c.xdt
    | none => .text
  have hK : ∀ c ∈ cells, sortOf c.xdt = K c.col := by
    intro c hc
    show _ = match cells.find? fun d => d.col = c.col with | some c => sortOf c.xdt | none => Sort3.text
    cases hf : cells.find? (fun d => d.col = c.col) with
    | none => have := List.find?_eq_none.mp hf c hc; simp at this
    | some d =>
      have h1 : d.col = c.col := by simpa using List.find?_some hf
      exact h c hc d (List.mem_of_find?_eq_some hf) h1.symm
  have hpK : o.prec = o'.prec ∨ ∀ k, K k ≠ .number := by
    rcases hp with hp | hp
    · exact Or.inl hp
    · right
      intro k
      show (match cells.find? fun d => d.col = k with | some c => sortOf c.xdt | none => Sort3.text) ≠ _
      cases hf : cells.find? (fun d => d.col = k) with
      | none => simp
      | some d => exact hp d (List.mem_of_find?_eq_some hf)
  refine readCells_blind (o' := o') (I := OneSortCol env o b K) (fresh := { shared := shared, binary := b, opts := o })
    (oneSort_blind hpK) lib search reMatch args
    (fun _ => ⟨rfl, rfl, by simp, fun hh => absurd rfl hh, by simp⟩) ?_
  intro c hc s s' hs e
  refine hs.add (hK c hc) ?_ e
  rcases hn with hn | hn
  · exact Or.inl hn
  · rcases hn c hc with h1 | h1
    · right; left; rw [← hK c hc]; exact h1
    · exact Or.inr (Or.inr h1)

theorem checkRows_toNat {skip take : Int} {a b : Nat} (h : checkRows skip take = .ok (a, b)) :
    a = skip.toNat ∧ b = take.toNat := by
  unfold checkRows at h
  split at h
  · cases h
  · split at h
    · cases h
    · injection h with h; injection h with h1 h2; exact ⟨h1.symm, h2.symm⟩

/-- Where every column is of one sort, `conflict_resolve` and `datetime_formats` change nothing; neither does
`float_precision` if there are no numbers.  In an XLSX file cells typed as moments or numbers must contain numbers: a run of
cells where one does not is read as text. -/
theorem C112_one_sort {A D : Type} (env : Env) (lib : Lib A D) (search : Str → Option (Str → Bool))
    (reMatch : Str → Str → Py Bool) (toInt : Str → Option Int) (a : FileArgs D) (conflict : Str) (formats : FormatsArg)
    (prec : Nat) (p : Package) (h : OneSort (p.cellsOf toInt a))
    (hn : fileKind p.names = .ok .xlsb ∨ ∀ c ∈ p.cellsOf toInt a, Numeral env.pyFloat c)
    (hp : a.precision = prec ∨ ∀ c ∈ p.cellsOf toInt a, sortOf c.xdt ≠ .number) :
    readFile env lib search reMatch toInt { a with conflict := conflict, formats := formats, precision := prec } p =
      readFile env lib search reMatch toInt a p := by
  unfold Package.cellsOf at h hn hp
  unfold readFile
  cases hk : fileKind p.names with
  | error e => rfl
  | ok k =>
    rw [hk] at h hn hp
    cases k with
    | xlsx =>
      simp only at h hn hp ⊢
      replace hn := hn.resolve_left (by simp)
      unfold XlsxFile.cellsOf at h hn hp
      unfold readXlsx
      cases h1 : xlsxSheets p.xlsx.rels p.xlsx.workbook with
      | error e => rfl
      | ok sheets =>
        rw [h1] at h hn hp
        simp only at h hn hp ⊢
        cases h2 : selectSheet sheets a.iter.sheet with
        | error e => rfl
        | ok path =>
          rw [h2] at h hn hp
          simp only at h hn hp ⊢
          cases h3 : checkRows a.iter.skipRows a.iter.takeRows with
          | error e => rfl
          | ok st =>
            obtain ⟨e1, e2⟩ := checkRows_toNat (a := st.1) (b := st.2) h3
            simp only
            rw [e1, e2]
            cases h4 : p.xlsx.parts path with
            | none => rfl
            | some doc =>
              rw [h4] at h hn hp
              cases h5 : p.xlsx.formats toInt with
              | error e => rfl
              | ok styles =>
                rw [h5] at h hn hp
                simp only [openPart] at h hn hp ⊢
                split
                · rfl
                · cases p.xlsx.strings (skipPredicate errorStringsXlsx a.nulls) with
                  | error e => rfl
                  | ok sh =>
                    exact readCells_oneSort env lib search reMatch a.table h false (Or.inr hn) (by
                      rcases hp with hp | hp
                      · exact Or.inl hp
                      · exact Or.inr hp) sh.1
    | xlsb =>
      simp only at h hn hp ⊢
      unfold XlsbFile.cellsOf at h hp
      unfold readXlsb
      cases h1 : xlsbSheets p.xlsb.rels p.xlsb.workbook with
      | error e => rfl
      | ok sheets =>
        rw [h1] at h hp
        simp only at h hp ⊢
        cases h2 : selectSheet sheets a.iter.sheet with
        | error e => rfl
        | ok path =>
          rw [h2] at h hp
          simp only at h hp ⊢
          cases h3 : checkRows a.iter.skipRows a.iter.takeRows with
          | error e => rfl
          | ok st =>
            obtain ⟨e1, e2⟩ := checkRows_toNat (a := st.1) (b := st.2) h3
            simp only
            rw [e1, e2]
            cases h4 : p.xlsb.parts path with
            | none => rfl
            | some part =>
              rw [h4] at h hp
              cases h5 : p.xlsb.temporal with
              | error e => rfl
              | ok styles =>
                rw [h5] at h hp
                simp only [openPart]
                cases h6 : p.xlsb.strings (skipPredicate errorStringsXlsb a.nulls) with
                | error e => rfl
                | ok sh =>
                  rw [h6] at h hp
                  simp only at h hp ⊢
                  cases h7 : xlsbSheet styles (skipPredicate errorStringsXlsb a.nulls)
                      (fun seen => if seen then sh.2 else [])
                      ⟨a.iter.skipRows.toNat, a.iter.takeRows.toNat, a.iter.keepEmpty, a.iter.skipCols⟩ part with
                  | error e => rfl
                  | ok evs =>
                    rw [h7] at h hp
                    exact readCells_oneSort env lib search reMatch a.table h true (Or.inl rfl) (by
                      rcases hp with hp | hp
                      · exact Or.inl hp
                      · exact Or.inr hp) sh.1

/-- The example files: texts and a moment alone in their columns once the first column is left out. -/
example : (let a : FileArgs DType := { iter := { skipCols := [0] }, nulls := .values [['-']] }
    exPackage.cellsOf exInt a ≠ [] ∧ OneSort (exPackage.cellsOf exInt a) ∧
    ∀ c ∈ exPackage.cellsOf exInt a, sortOf c.xdt ≠ .number) := by
  refine ⟨by decide +kernel, ?_, ?_⟩
  · unfold OneSort; decide +kernel
  · decide +kernel

/-- One column with a number and the text `7`: here the options matter. -/
def exMixedCells : List Cell := [⟨0, 0, 0x20, .text ['1']⟩, ⟨1, 0, 0x10, .text ['7']⟩]

/-- `OneSort` is needed: with `conflict_resolve="numeric"` the text is converted. -/
theorem C112_mixed_depends : ∃ (cells : List Cell), ¬ OneSort cells ∧ (∀ c ∈ cells, Numeral demoEnv.pyFloat c) ∧
    readCells demoEnv exLib (fun _ => none) (fun _ _ => .ok false) {}
        { shared := [], binary := false, opts := concatOpts strNumeric .none 6 } cells ≠
      readCells demoEnv exLib (fun _ => none) (fun _ _ => .ok false) {}
        { shared := [], binary := false, opts := concatOpts strNo .none 6 } cells :=
  ⟨exMixedCells, by unfold OneSort; decide +kernel, by
    intro c hc
    simp only [exMixedCells, List.mem_cons, List.not_mem_nil, or_false] at hc
    rcases hc with rfl | rfl
    · exact Or.inr ⟨['1'], .fin 1, rfl, by decide +kernel⟩
    · exact Or.inl rfl, by decide +kernel⟩

/-- `Numeral` is needed: a text where a number is announced is read as text, and the column has two sorts. -/
theorem C112_numeral_depends : ∃ (cells : List Cell), OneSort cells ∧
    readCells demoEnv exLib (fun _ => none) (fun _ _ => .ok false) {}
        { shared := [], binary := false, opts := concatOpts strTemporal (.one ['f']) 6 } cells ≠
      readCells demoEnv exLib (fun _ => none) (fun _ _ => .ok false) {}
        { shared := [], binary := false, opts := concatOpts strNo .none 6 } cells :=
  ⟨[⟨0, 0, 0x24, .text ['1']⟩, ⟨2, 0, 0x24, .text ['D', '1']⟩], by unfold OneSort; decide +kernel, by decide +kernel⟩

/-- The condition on numbers is needed: `float_precision` decides between integers and floats. -/
theorem C112_precision_depends : ∃ (cells : List Cell), OneSort cells ∧
    readCells demoEnv exLib (fun _ => none) (fun _ _ => .ok false) {}
        { shared := [], binary := true, opts := concatOpts strNo .none 0 } cells ≠
      readCells demoEnv exLib (fun _ => none) (fun _ _ => .ok false) {}
        { shared := [], binary := true, opts := concatOpts strNo .none 6 } cells :=
  ⟨[⟨0, 0, 0x21, .bytes [0, 0, 0xF4, 0x3F]⟩], by unfold OneSort; decide +kernel, by decide +kernel⟩

end Rxls
