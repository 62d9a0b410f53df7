import Verif.Spec.Gaps
import Verif.Props.ReadFile

/-! # Property C109: rows that the file leaves out -/

namespace Rxls

/-- The cells delivered. -/
def deliveredCells (x : Py (List Ev)) : Py (List Cell) := x.map (·.filterMap Ev.cell?)

theorem iter_gap (styles : List Bytes) (isNull : Str → Bool) (nulls : Bool → List Bytes) (o : SheetArgs)
    (hk : o.keepEmpty = false) (a b : Bytes) (rs : List Record) (st : XlsbState) :
    deliveredCells (iterXlsb styles isNull nulls o (⟨0, b⟩ :: ⟨0, a⟩ :: rs) st) =
      deliveredCells (iterXlsb styles isNull nulls o (⟨0, a⟩ :: rs) st) := by
  have e : ∀ (st : XlsbState) (a : Bytes) (rs : List Record), iterXlsb styles isNull nulls o (⟨0, a⟩ :: rs) st =
      let row := if !st.empty then st.row + 1 else st.row
      if 0 < o.takeRows + o.skipRows ∧ ((o.takeRows + o.skipRows : Nat) : Int) < row then .ok []
      else
        match iterXlsb styles isNull nulls o rs { st with row := row, empty := true } with
        | .error e => .error e
        | .ok evs => .ok (if (o.skipRows : Int) ≤ row then .callback :: evs else evs) := by
    intro st a rs
    rw [iterXlsb]
    simp only [if_true, hk, Bool.or_false]
    rfl
  rw [e st b, e st a]
  simp only
  generalize (if (!st.empty) = true then st.row + 1 else st.row) = row
  split
  · rfl
  · rename_i h
    rw [e _ a]
    simp only [Bool.not_true, Bool.false_eq_true, if_false, if_neg h]
    cases iterXlsb styles isNull nulls o rs { row := row, empty := true, seen := st.seen } with
    | error e => rfl
    | ok evs =>
      simp only [deliveredCells, Except.map]
      congr 1
      split <;> rfl

theorem Gaps.head {a : Bytes} {rs rs' : List Record} (h : Gaps (⟨0, a⟩ :: rs) rs') : ∃ b t, rs' = ⟨0, b⟩ :: t := by
  cases h with
  | keep _ h => exact ⟨a, _, rfl⟩
  | gap _ b h => exact ⟨b, _, rfl⟩

theorem Gaps.iter (styles : List Bytes) (isNull : Str → Bool) (nulls : Bool → List Bytes) (o : SheetArgs)
    (hk : o.keepEmpty = false) {rs rs' : List Record} (h : Gaps rs rs') :
    ∀ st, deliveredCells (iterXlsb styles isNull nulls o rs' st) = deliveredCells (iterXlsb styles isNull nulls o rs st) := by
  induction h with
  | nil => intro; rfl
  | gap a b h ih =>
    intro st
    obtain ⟨c, t, rfl⟩ := h.head
    rw [iter_gap _ _ _ _ hk, ih]
  | @keep r rs rs' h ih =>
    intro st
    have key : ∀ (st : XlsbState) (f : List Ev → List Ev), (∀ a b, a.filterMap Ev.cell? = b.filterMap Ev.cell? →
        (f a).filterMap Ev.cell? = (f b).filterMap Ev.cell?) →
        deliveredCells (match iterXlsb styles isNull nulls o rs' st with
          | .error e => .error e
          | .ok evs => .ok (f evs)) =
        deliveredCells (match iterXlsb styles isNull nulls o rs st with
          | .error e => .error e
          | .ok evs => .ok (f evs)) := by
      intro st f hf
      have := ih st
      revert this
      cases iterXlsb styles isNull nulls o rs' st <;> cases iterXlsb styles isNull nulls o rs st <;>
        simp only [deliveredCells, Except.map, Except.ok.injEq, Except.error.injEq, reduceCtorEq, imp_self]
      exact hf _ _
    rw [iterXlsb, iterXlsb]
    by_cases h0 : r.recId = 0
    · simp only [h0, if_true]
      generalize (if (!st.empty || o.keepEmpty) = true then st.row + 1 else st.row) = row
      split
      · rfl
      · apply key { row := row, empty := true, seen := st.seen }
          (fun evs => if (o.skipRows : Int) ≤ row then Ev.callback :: evs else evs)
        intro a b hab
        split
        · exact hab
        · exact hab
    · simp only [h0, if_false]
      split
      · exact ih st
      split
      · rfl
      split
      · rfl
      · exact ih st
      · apply key
        intro a b hab
        simp [Ev.cell?, hab]

theorem Gaps.filter {rs rs' : List Record} (h : Gaps rs rs') (p : Nat → Bool) (hp : p 0 = true) :
    Gaps (rs.filter fun r => p r.recId) (rs'.filter fun r => p r.recId) := by
  induction h with
  | nil => exact .nil
  | keep r h ih =>
    rw [List.filter_cons, List.filter_cons]
    split
    · exact .keep r ih
    · exact ih
  | gap a b h ih =>
    rw [List.filter_cons, if_pos hp] at ih ⊢
    rw [List.filter_cons, if_pos hp]
    exact .gap a b ih

theorem deliveredCells_congr {α : Type} {x y : Py (List Ev)} (g : List Cell → Py α) : deliveredCells x = deliveredCells y →
    (match x with
      | .error e => (.error e : Py α)
      | .ok evs => g (evs.filterMap Ev.cell?)) =
    (match y with
      | .error e => .error e
      | .ok evs => g (evs.filterMap Ev.cell?)) := by
  cases x <;> cases y <;> simp only [deliveredCells, Except.map, Except.ok.injEq, Except.error.injEq, reduceCtorEq, imp_self]
  · rintro ⟨⟩
  · rintro ⟨⟩
  · intro h
    rw [h]

/-- C109, partial: XLSB, empty rows not counted.  A file with records for its empty rows gives the same as one that leaves
them out, whatever the other arguments.  Missing: `take_rows_non_empty=True` (`C109_keep_finding`). -/
theorem C109_xlsb_partial {A D : Type} (env : Env) (lib : Lib A D) (search : Str → Option (Str → Bool))
    (reMatch : Str → Str → Py Bool) (isNull : Str → Bool) (o : ConcatOpts) (ia : IterArgs) (args : ReadArgs D)
    (hk : ia.keepEmpty = false) (f : XlsbFile) (parts : Str → Option Bytes)
    (h : ∀ n, Option.Rel FillsGaps (f.parts n) (parts n)) :
    readXlsb env lib search reMatch isNull o ia args { f with parts := parts } =
      readXlsb env lib search reMatch isNull o ia args f := by
  unfold readXlsb
  simp only [XlsbFile.temporal, XlsbFile.strings]
  split
  · rfl
  split
  · rfl
  split
  · rfl
  rename_i path _ _ _ _ _
  have hpath := h path
  cases hd : f.parts path with
  | none =>
    rw [hd] at hpath
    generalize parts path = q at hpath ⊢
    cases hpath
    rfl
  | some d =>
    rw [hd] at hpath
    generalize parts path = q at hpath ⊢
    cases hpath with
    | some hl =>
      simp only [openPart]
      split
      · rfl
      split
      · rfl
      refine deliveredCells_congr _ ?_
      rcases hl with rfl | ⟨rs, rs', h1, h2, hg⟩
      · rfl
      · unfold xlsbSheet
        rw [scan_part h1 rfl, scan_part h2 rfl]
        exact (hg.filter (fun i => decide (i ∈ sheetIds)) (by decide)).iter _ _ _ _ hk {}

theorem fillRows_consecutive (n : Nat) (rows : List XRow) :
    fillRows 1 ((List.range' n rows.length).zip rows) =
      if rows = [] then [] else List.replicate (n - 1) ⟨[], []⟩ ++ rows := by
  have key : ∀ (rows : List XRow) (n : Nat), fillRows n ((List.range' n rows.length).zip rows) = rows := by
    intro rows
    induction rows with
    | nil => intro n; rfl
    | cons r rows ih =>
      intro n
      simp only [List.length_cons, List.range'_succ, List.zip_cons_cons, fillRows, Nat.sub_self, List.replicate_zero,
        List.nil_append, ih]
  cases rows with
  | nil => rfl
  | cons r rows =>
    simp only [List.length_cons, List.range'_succ, List.zip_cons_cons, fillRows, key, reduceCtorEq, if_false]

theorem runRowsX_leading (o : SheetArgs) (hk : o.keepEmpty = false) (bad : Bool) (k : Nat) (L : List (List Item)) (T : Nat) :
    (runRowsX o bad (List.replicate k [] ++ L) 0 true T).1.filterMap Ev.cell? =
      (runRowsX o bad L 0 true T).1.filterMap Ev.cell? := by
  induction k with
  | zero => rfl
  | succ k ih =>
    rw [List.replicate_succ, List.cons_append, runRowsX]
    simp only [ite_self, List.isEmpty_nil, Bool.and_true, hk, Bool.not_true, Bool.or_self, Bool.false_eq_true, if_false,
      Bool.and_false, Nat.add_zero, Nat.not_lt_zero, and_false, List.map_nil, List.nil_append]
    exact ih

/-- C109, partial: XLSX, empty rows not counted.  If the file only leaves out rows above its first one, an element for each
of them makes no difference.  Missing: rows left out below the first one (`C109_xlsx_finding`), and
`take_rows_non_empty=True` (`C109_keep_finding`). -/
theorem C109_xlsx_partial {A D : Type} (env : Env) (lib : Lib A D) (search : Str → Option (Str → Bool))
    (reMatch : Str → Str → Py Bool) (toInt : Str → Option Int) (isNull : Str → Bool) (o : ConcatOpts) (ia : IterArgs)
    (args : ReadArgs D) (hk : ia.keepEmpty = false) (f : XlsxFile) (s : XSheet) (hs : s.Ok) (bad : Bool) (n : Nat)
    (path : Str) :
    let filled : XSheet := { s with rows := fillRows 1 ((List.range' n s.rows.length).zip s.rows) }
    readXlsx env lib search reMatch toInt isNull o ia args
        { f with parts := fun q => if q = path then some ⟨filled.events, bad⟩ else f.parts q } =
      readXlsx env lib search reMatch toInt isNull o ia args
        { f with parts := fun q => if q = path then some ⟨s.events, bad⟩ else f.parts q } := by
  intro filled
  have hrows : filled.rows = if s.rows = [] then [] else List.replicate (n - 1) ⟨[], []⟩ ++ s.rows :=
    fillRows_consecutive n s.rows
  have hmem : ∀ r ∈ filled.rows, r.cells = [] ∨ r ∈ s.rows := by
    intro r hr
    rw [hrows] at hr
    split at hr
    · cases hr
    · rcases List.mem_append.1 hr with hr | hr
      · exact .inl (by rw [List.eq_of_mem_replicate hr])
      · exact .inr hr
  have hf : filled.Ok := {
    pre := hs.pre
    post := hs.post
    body := by
      intro r hr c hc
      rcases hmem r hr with h | h
      · rw [h] at hc; cases hc
      · exact hs.body r h c hc
    ref := by
      intro r hr c hc
      rcases hmem r hr with h | h
      · rw [h] at hc; cases hc
      · exact hs.ref r h c hc }
  have hcells : ∀ styles oo, oo.keepEmpty = false → (xlsxSheet styles isNull oo ⟨filled.events, bad⟩).1.filterMap Ev.cell? =
      (xlsxSheet styles isNull oo ⟨s.events, bad⟩).1.filterMap Ev.cell? := by
    intro styles oo hoo
    rw [sheet_rows _ hf, sheet_rows _ hs, hrows]
    by_cases he : s.rows = []
    · rw [if_pos he, he]
    · rw [if_neg he, List.map_append, List.map_replicate]
      exact runRowsX_leading oo hoo bad (n - 1) _ _
  unfold readXlsx
  simp only [XlsxFile.formats, XlsxFile.strings]
  split
  · rfl
  split
  · rfl
  split
  · rfl
  rename_i p _ _ _ _ _
  by_cases hp : p = path
  · subst hp
    simp only [if_true, openPart]
    split
    · rfl
    · simp only [hcells _ ⟨_, _, ia.keepEmpty, ia.skipCols⟩ hk]
  · simp only [hp, if_false]

/-- A sheet with two rows, of the numbers 1 and 3: as Excel writes it, and with an element for row 2. -/
def exGapRows : List (Nat × XRow) :=
  [(1, ⟨[], [TCell.xml ⟨0, exDigits 1, some 2, .plain ['5'], [], []⟩]⟩),
    (3, ⟨[], [TCell.xml ⟨0, exDigits 3, some 2, .plain ['7'], [], []⟩]⟩)]

@[inherit_doc exGapRows] def exGapRead (rows : List XRow) (keep : Bool) : Py (List Fetched) :=
  let doc : XmlDoc := ⟨(⟨[], rows, []⟩ : XSheet).events, false⟩
  (readXlsx demoEnv exLib (fun _ => none) (fun _ _ => .ok false) exInt (fun _ => false) exConcat { keepEmpty := keep } {}
    { exXlsxFile with parts := fun _ => some doc }).map (·.arrays)

/-- The same in XLSB. -/
def exGapPart (rows : List Nat) : List Record :=
  ⟨129, []⟩ :: ⟨145, []⟩ :: (rows.flatMap (fun n => ⟨0, le32 n⟩ ::
    (if n = 1 then [] else [⟨2, cellPayload 0 [0, 0, 0] 0 (.rk (4 * (n + 5) + 2)) []⟩])) ++ [⟨146, []⟩, ⟨130, []⟩])

@[inherit_doc exGapPart] def exGapReadB (rows : List Nat) (keep : Bool) : Py (List Fetched) :=
  (readXlsb demoEnv exLib (fun _ => none) (fun _ _ => .ok false) (fun _ => false) exConcat { keepEmpty := keep } {}
    { exFile with parts := fun _ => some (bytesOf (exGapPart rows)) }).map (·.arrays)

/-- A leading gap, as in the partial theorems. -/
example : exGapRead (fillRows 1 [(3, ⟨[], [TCell.xml ⟨0, exDigits 3, some 2, .plain ['5'], [], []⟩]⟩)]) false =
      .ok [.arr ⟨.i8, [some (.i8 5)]⟩] ∧
    (fillRows 1 exGapRows).map (·.cells.length) = [1, 0, 1] ∧
    exGapReadB [0, 2] false = .ok [.arr ⟨.i8, [some (.i8 5), some (.i8 7)]⟩] ∧
    exGapReadB [0, 1, 2] false = exGapReadB [0, 2] false := by
  decide +kernel

example : Gaps (exGapPart [0, 2]) (exGapPart [0, 1, 2]) :=
  .keep _ (.keep _ (.keep _ (.keep _ (.gap _ _ (.keep _ (.keep _ (.keep _ (.keep _ .nil))))))))

/-- C109, finding: XLSX with the default arguments. A row left out in the middle is missing in the table; with an element
for it, it is a row of nulls. -/
theorem C109_xlsx_finding :
    exGapRead (exGapRows.map (·.2)) false = .ok [.arr ⟨.i8, [some (.i8 5), some (.i8 7)]⟩] ∧
    exGapRead (fillRows 1 exGapRows) false = .ok [.arr ⟨.i8, [some (.i8 5), none, some (.i8 7)]⟩] := by
  decide +kernel

/-- C109, finding: with `take_rows_non_empty=True`, in both formats. -/
theorem C109_keep_finding :
    exGapRead (exGapRows.map (·.2)) true = .ok [.arr ⟨.i8, [some (.i8 5), some (.i8 7)]⟩] ∧
    exGapRead (fillRows 1 exGapRows) true = .ok [.arr ⟨.i8, [some (.i8 5), none, some (.i8 7)]⟩] ∧
    exGapReadB [0, 2] true = .ok [.arr ⟨.i8, [some (.i8 5), some (.i8 7)]⟩] ∧
    exGapReadB [0, 1, 2] true = .ok [.arr ⟨.i8, [some (.i8 5), none, some (.i8 7)]⟩] := by
  decide +kernel

end Rxls
