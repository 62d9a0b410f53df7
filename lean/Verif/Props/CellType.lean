import Verif.Spec.CellType
import Verif.Props.EndToEndXlsx
import Verif.Props.XlsxParts

/-! # Property C106: a cell is read as its attribute `t` says -/

namespace Rxls

/-- C106, exact: whether a cell of a sheet gets the type its attribute `t` says. -/
theorem C106_exact (toInt : Str → Option Int) (es : List Xml) (h : StylesComplete es)
    (hn : ((numFmts es).map (·.1)).Nodup) (hi : ∀ y ∈ cellFmts es, (toInt y).isSome) (attrs : List (Str × Str))
    (i : Nat) (y : Str) (n : Int) (hs : attrGet attrs attS = some (pyStr i) ∨ (i = 0 ∧ attrGet attrs attS = none))
    (hy : (cellFmts es)[i]? = some y) (hyn : toInt y = some n) (k : CellKind)
    (hk : declaredKind (attrGet attrs attT) (classOf (numFmts es) y n) = some k) :
    ∃ l, xlsxStyles toInt ⟨es, false⟩ = .ok l ∧ (xlsxType l attrs = k.columnType ↔
      k = .shared ∨ (k = .text ∧ classOf (numFmts es) y n = .other) ∨
        (k = .number ∧ classOf (numFmts es) y n = .numeric) ∨ (k = .moment ∧ classOf (numFmts es) y n = .temporal)) := by
  by_cases ht : attrGet attrs attT = some ['s']
  · obtain ⟨l, h1, -⟩ := xlsxStyles_class toInt es h hn hi
    rw [ht] at hk
    have : k = .shared := by
      simp only [declaredKind, show ¬ (['s'] = ['n']) by decide, if_false, if_true, Option.some.injEq] at hk
      exact hk.symm
    subst this
    exact ⟨l, h1, by simp [xlsxType, ht, CellKind.columnType, TYPE_STRING, REPR_SHARED]⟩
  · obtain ⟨l, h1, h2⟩ := C50_cell_type toInt es h hn hi attrs i y n ht hs hy hyn
    refine ⟨l, h1, ?_⟩
    rw [h2]
    have hns : k ≠ .shared := by
      rintro rfl
      revert hk
      cases hT : attrGet attrs attT with
      | none => simp only [declaredKind]; split <;> simp
      | some v =>
        have hv : v ≠ ['s'] := fun e => ht (by rw [hT, e])
        simp only [declaredKind, hv, if_false]
        repeat' split
        all_goals simp
    cases classOf (numFmts es) y n <;> cases k <;>
      simp_all [CellKind.columnType, TYPE_STRING, REPR_PREPARED]

/-- C106, partial: a shared string, a text in a cell without number or date format, a number in a cell with a number format
and a date in a cell with a date format get the type that the attribute `t` says.  Missing: the other pairs of kind and
format, among them numbers without a format, texts with one, and all truth values (see `C106_exact`). -/
theorem C106_declared_partial (toInt : Str → Option Int) (es : List Xml) (h : StylesComplete es)
    (hn : ((numFmts es).map (·.1)).Nodup) (hi : ∀ y ∈ cellFmts es, (toInt y).isSome) (attrs : List (Str × Str))
    (i : Nat) (y : Str) (n : Int) (hs : attrGet attrs attS = some (pyStr i) ∨ (i = 0 ∧ attrGet attrs attS = none))
    (hy : (cellFmts es)[i]? = some y) (hyn : toInt y = some n) (k : CellKind)
    (hk : declaredKind (attrGet attrs attT) (classOf (numFmts es) y n) = some k)
    (hf : k = .shared ∨ (k, classOf (numFmts es) y n) ∈
      [(CellKind.text, StyleClass.other), (.number, .numeric), (.moment, .temporal)]) :
    ∃ l, xlsxStyles toInt ⟨es, false⟩ = .ok l ∧ xlsxType l attrs = k.columnType := by
  obtain ⟨l, h1, h2⟩ := C106_exact toInt es h hn hi attrs i y n hs hy hyn k hk
  refine ⟨l, h1, h2.2 ?_⟩
  simpa using hf

example : xlsxStyles exInt ⟨exTStyles, false⟩ = .ok [(['2'], 0x20), (['1'], 0x24)] ∧
    xlsxType [(['2'], 0x20), (['1'], 0x24)] [(attR, ['A', '1']), (attS, ['1'])] = CellKind.moment.columnType ∧
    xlsxType [(['2'], 0x20), (['1'], 0x24)] [(attR, ['A', '1']), (attS, ['2']), (attT, ['n'])] =
      CellKind.number.columnType ∧
    xlsxType [(['2'], 0x20), (['1'], 0x24)] [(attR, ['A', '1']), (attS, ['2']), (attT, ['s'])] =
      CellKind.shared.columnType ∧
    xlsxType [(['2'], 0x20), (['1'], 0x24)] [(attR, ['A', '1']), (attT, ['s', 't', 'r'])] = CellKind.text.columnType := by
  decide +kernel

theorem runXlsx_retyped (styles : List (Str × Nat)) (isNull : Str → Bool) (o : SheetArgs) (bad : Bool) {es es' : List Xml}
    (h : List.Forall₂ Xml.Retyped es es') :
    ∀ st : XlsxState, runXlsx styles isNull o bad es st = runXlsx styles isNull o bad es' st := by
  induction h with
  | nil => intros; rfl
  | @cons e e' es es' he h ih =>
    intro st
    cases he with
    | same e => cases e <;> simp only [runXlsx, ih]
    | cell a a' hr hs ht =>
      have h1 : attrAt a attR = attrAt a' attR := by unfold attrAt; rw [hr]
      have h2 : xlsxType styles a = xlsxType styles a' := by
        unfold xlsxType
        rw [hs]
        simp only [ht]
      simp only [runXlsx, xlsxStart, h1, h2, ih]

/-- C106, what the code does: of the attribute `t` it only asks whether it is `s`; a file in which the cells have other
values instead is read alike. -/
theorem C106_unused {A D : Type} (env : Env) (lib : Lib A D) (search : Str → Option (Str → Bool))
    (reMatch : Str → Str → Py Bool) (toInt : Str → Option Int) (isNull : Str → Bool) (o : ConcatOpts) (ia : IterArgs)
    (args : ReadArgs D) (f f' : XlsxFile) (hr : f.rels = f'.rels) (hw : f.workbook = f'.workbook)
    (hs : f.shared = f'.shared) (hst : f.styles = f'.styles)
    (hp : ∀ p, (f.parts p = none ∧ f'.parts p = none) ∨ ∃ es es' bad, f.parts p = some ⟨es, bad⟩ ∧
      f'.parts p = some ⟨es', bad⟩ ∧ List.Forall₂ Xml.Retyped es es') :
    readXlsx env lib search reMatch toInt isNull o ia args f = readXlsx env lib search reMatch toInt isNull o ia args f' := by
  unfold readXlsx
  rw [hr, hw]
  have hF : f.formats toInt = f'.formats toInt := by unfold XlsxFile.formats; rw [hst]
  have hS : f.strings isNull = f'.strings isNull := by unfold XlsxFile.strings; rw [hs]
  rw [hF, hS]
  split
  · rfl
  split
  · rfl
  split
  · rfl
  rename_i path _ _ _ _ _
  rcases hp path with ⟨h1, h2⟩ | ⟨es, es', bad, h1, h2, h3⟩
  · rw [h1, h2]
  · rw [h1, h2]
    simp only [openPart, xlsxSheet, runXlsx_retyped _ isNull _ bad h3]
    rfl

/-- A sheet with two cells of style 1 (dates), the second with attribute `t` and text `s`. -/
def exTypedSheet (t s : Str) : XSheet :=
  ⟨[], [⟨[], [TCell.xml ⟨0, exDigits 1, some 1, .plain ['4', '5', '2', '9', '2'], [], []⟩]⟩,
    ⟨[], [TCell.xml ⟨0, exDigits 2, some 1, .plain s, [(attT, t)], []⟩]⟩], []⟩

@[inherit_doc exTypedSheet] def exTypedFile (t s : Str) : XlsxFile :=
  let doc : XmlDoc := ⟨(exTypedSheet t s).events, false⟩
  { exXlsxFile with parts := fun n => if n = ['x', 'l', '/', 's', '1'] then some doc else none }

@[inherit_doc exTypedSheet] def exTypedRead (t s : Str) : Py (List Fetched) :=
  (readXlsx demoEnv exLib (fun _ => none) (fun _ _ => .ok false) exInt (fun _ => false) exConcat {} {}
    (exTypedFile t s)).map (·.arrays)

/-- The same in XLSB. -/
def exTypedPart (c : Content) (id : Nat) : List Record :=
  ⟨129, []⟩ :: ⟨148, [1, 2]⟩ :: ⟨145, []⟩ ::
    (Grid.records exHdrs [[⟨0, [1, 0, 0], .rk 181170, 2, 0, []⟩], [⟨0, [1, 0, 0], c, id, 0, []⟩]] ++ [⟨402, []⟩, ⟨130, []⟩])

@[inherit_doc exTypedPart] def exTypedReadB (c : Content) (id : Nat) : Py (List Fetched) :=
  (readXlsb demoEnv exLib (fun _ => none) (fun _ _ => .ok false) (fun _ => false) exConcat {} {}
    { exFile with
        parts := fun n => if n = ['x', 'l', '/', 's', '1'] then some (bytesOf (exTypedPart c id)) else none }).map (·.arrays)

example : exTypedRead ['n'] ['1'] = exTypedReadB (.rk 6) 2 ∧
    exTypedRead ['n'] ['1'] = .ok [.arr ⟨.ts, [some (.ts 1704067200000), some (.ts (-2208988800000))]⟩] := by
  decide +kernel

/-- C106, finding: in a column of dates, a truth value becomes a date, and a text (of a formula) makes the dates of its run
the texts of their numbers; with the same cells in XLSB, the truth value and the text are what they are, and the dates stay
dates (written as text beside them). -/
theorem C106_type_finding :
    exTypedRead ['b'] ['1'] = .ok [.arr ⟨.ts, [some (.ts 1704067200000), some (.ts (-2208988800000))]⟩] ∧
    exTypedReadB (.bool true) 4 = .ok [.arr ⟨.utf8, [some (.str (demoEnv.renderTs 1704067200000)), some (.str ['1'])]⟩] ∧
    exTypedRead ['s', 't', 'r'] ['n', 'a'] =
      .ok [.arr ⟨.utf8, [some (.str ['4', '5', '2', '9', '2']), some (.str ['n', 'a'])]⟩] ∧
    exTypedReadB (.text ['n', 'a']) 8 =
      .ok [.arr ⟨.utf8, [some (.str (demoEnv.renderTs 1704067200000)), some (.str ['n', 'a'])]⟩] := by
  decide +kernel

/-- C106, finding: a date that is stored as such (`t="d"`, ISO 8601) in a column of dates gets the type of a date, but its
text is no number, so it stays a text, and the dates of its run become the texts of their numbers. -/
theorem C106_iso_finding :
    xlsxType [(['1'], 0x24)] [(attR, ['A', '1']), (attS, ['1']), (attT, ['d'])] = CellKind.moment.columnType ∧
    exTypedRead ['d'] ['2', '0', '2', '4', '-', '0', '1', '-', '0', '2'] =
      .ok [.arr ⟨.utf8, [some (.str ['4', '5', '2', '9', '2']),
        some (.str ['2', '0', '2', '4', '-', '0', '1', '-', '0', '2'])]⟩] := by
  decide +kernel

/-- C106, XLSB: the type of a delivered cell is that of its record, the format matters for numbers only. -/
theorem C106_xlsb (styles : List Bytes) (isNull : Str → Bool) (nullShared : List Bytes) (skipCols : List Int) (r : Record)
    (c : Int) (ty : Nat) (raw : Raw) (h : xlsbCell styles isNull nullShared skipCols r = .ok (some (c, ty, raw))) :
    ty = if r.recId = 6 ∨ r.recId = 8 then 0x18
      else if r.recId = 7 then 0x11
      else if r.recId = 4 ∨ r.recId = 10 then 0x22
      else if r.recId = 5 ∨ r.recId = 9 then (if pySlice r.data 4 7 ∈ styles then 0x24 else 0x28)
      else if pySlice r.data 4 7 ∈ styles then 0x25 else 0x21 := by
  unfold xlsbCell at h
  split at h
  · cases h
  simp only at h
  split at h
  · cases h
  have hc : styles.contains (pySlice r.data 4 7) = decide (pySlice r.data 4 7 ∈ styles) := by simp
  by_cases h6 : r.recId = 6 ∨ r.recId = 8
  · rw [if_pos h6] at h ⊢
    split at h
    · cases h
    split at h
    · cases h
    split at h
    · cases h
    · cases h; rfl
  rw [if_neg h6] at h ⊢
  by_cases h5 : r.recId = 5 ∨ r.recId = 9
  · rw [if_pos h5] at h
    rw [if_neg (by omega), if_neg (by omega), if_pos h5]
    cases h
    rw [hc]
    by_cases hm : pySlice r.data 4 7 ∈ styles <;> simp [hm, TYPE_NUMERIC, REPR_TEMPORAL, REPR_PREPARED]
  rw [if_neg h5] at h
  by_cases h4 : r.recId = 4 ∨ r.recId = 10
  · rw [if_pos h4] at h
    rw [if_neg (by omega), if_pos h4]
    cases h
    rfl
  rw [if_neg h4] at h
  by_cases h7 : r.recId = 7
  · rw [if_pos h7] at h ⊢
    split at h
    · cases h
    · cases h; rfl
  rw [if_neg h7] at h ⊢
  rw [if_neg h4, if_neg h5]
  cases h
  rw [hc]
  by_cases hm : pySlice r.data 4 7 ∈ styles <;> simp [hm, TYPE_NUMERIC, REPR_TEMPORAL, REPR_RKNUMBER]

example : xlsbCell [[1, 0, 0]] (fun _ => false) [] [] ⟨6, [0, 0, 0, 0, 1, 0, 0, 0, 1, 0, 0, 0, 65, 0]⟩ =
      .ok (some (0, 0x18, .text ['A'])) ∧
    xlsbCell [[1, 0, 0]] (fun _ => false) [] [] ⟨4, [0, 0, 0, 0, 1, 0, 0, 0, 1]⟩ = .ok (some (0, 0x22, .bytes [1])) := by
  decide +kernel

end Rxls
