import Verif.Spec.InCell
import Verif.Lemmas.Xlsx
import Verif.Props.EndToEnd

/-! # Values of a worksheet: the worker sees nothing else -/

namespace Rxls

/-- Two states of the worker, before the whole part and before its values. -/
structure ValueSim (b : Bool) (st st' : XlsxState) : Prop where
  same : { st with lTag := none } = { st' with lTag := none }
  inside : st.lTag.isSome = st'.lTag.isSome
  opened : b = true → st.lTag = st'.lTag
  other : b = false → st.lTag ≠ some tagV

theorem runXlsx_values (styles : List (Str × Nat)) (isNull : Str → Bool) (o : SheetArgs) (bad : Bool) (es : List Xml) :
    ∀ (b : Bool) (st st' : XlsxState), ValueSim b st st' →
      runXlsx styles isNull o bad es st = runXlsx styles isNull o bad (valueEvents b es) st' := by
  induction es with
  | nil => intros; rfl
  | cons e es ih =>
    intro b st st' h
    obtain ⟨row, empty, cRow, cTyp, lCol, lTag, take⟩ := st
    obtain ⟨row', empty', cRow', cTyp', lCol', lTag', take'⟩ := st'
    obtain ⟨h1, h2, h3, h4⟩ := h
    simp only [XlsxState.mk.injEq, true_and] at h1
    obtain ⟨rfl, rfl, rfl, rfl, rfl, rfl⟩ := h1
    simp only at h2 h3 h4
    have hcv : tagC ≠ tagV := by decide
    cases e with
    | start t a =>
      by_cases hc : t = tagC
      · subst hc
        simp only [valueEvents, if_true, runXlsx, xlsxStart]
        cases lTag with
        | some l =>
          cases lTag' with
          | none => simp at h2
          | some l' =>
            apply ih
            exact ⟨rfl, rfl, fun h => by simp at h, fun _ => by simp [hcv]⟩
        | none =>
          cases lTag' with
          | some l' => simp at h2
          | none =>
            have hi := fun st : XlsxState => fun hl : st.lTag ≠ some tagV =>
              ih false st st ⟨rfl, rfl, fun _ => rfl, fun _ => hl⟩
            by_cases hk : o.skipRows ≤ row
            · cases hr : attrAt a attR with
              | error e => simp [hk]
              | ok r =>
                simp only [hk, and_self, if_true]
                exact hi _ (by simp [hcv])
            · simp only [hk, and_false, if_false]
              exact hi _ (by simp)
      · by_cases hv : t = tagV
        · subst hv
          simp only [valueEvents, if_neg hc, if_true, runXlsx, xlsxStart]
          cases lTag with
          | some l =>
            cases lTag' with
            | none => simp at h2
            | some l' =>
              apply ih
              exact ⟨rfl, rfl, fun _ => rfl, fun h => by simp at h⟩
          | none =>
            cases lTag' with
            | some l' => simp at h2
            | none =>
              simp only [hc, false_and, if_false]
              apply ih
              exact ⟨rfl, rfl, fun _ => rfl, fun h => by simp at h⟩
        · simp only [valueEvents, if_neg hc, if_neg hv, runXlsx, xlsxStart]
          cases lTag with
          | some l =>
            cases lTag' with
            | none => simp at h2
            | some l' =>
              apply ih
              exact ⟨rfl, rfl, fun h => by simp at h, fun _ => by simp [hv]⟩
          | none =>
            cases lTag' with
            | some l' => simp at h2
            | none =>
              simp only [hc, false_and, if_false]
              apply ih
              exact ⟨rfl, rfl, fun h => by simp at h, fun _ => by simp⟩
    | text s =>
      cases b with
      | true =>
        have := h3 rfl
        subst this
        simp only [valueEvents, if_true, runXlsx]
        rw [ih true _ _ ⟨rfl, rfl, fun _ => rfl, fun h => by simp at h⟩]
      | false =>
        have := h4 rfl
        simp only [valueEvents, runXlsx]
        have hx : xlsxText isNull o.skipRows o.skipCols ⟨row, empty, cRow, cTyp, lCol, lTag, take⟩ s =
            (⟨row, empty, cRow, cTyp, lCol, lTag, take⟩, []) := by
          unfold xlsxText
          split
          · rfl
          · rw [if_neg (fun h => this h.1)]
        rw [hx]
        simp only [List.nil_append, Bool.false_eq_true, if_false]
        exact ih false _ _ ⟨rfl, h2, fun h => by simp at h, fun _ => this⟩
    | close t =>
      by_cases hr : t = tagRow
      · subst hr
        have hi := fun r t => ih b ⟨r, empty, cRow, cTyp, lCol, lTag, t⟩ ⟨r, empty, cRow, cTyp, lCol, lTag', t⟩
          ⟨rfl, h2, h3, h4⟩
        simp only [valueEvents, or_true, if_true, runXlsx, xlsxEnd, hi]
      · by_cases hc : t = tagC
        · subst hc
          simp only [valueEvents, true_or, if_true, runXlsx, xlsxEnd, if_neg hr]
          rw [ih b _ _ ⟨rfl, rfl, fun _ => rfl, fun _ => by simp⟩]
        · simp only [valueEvents, hr, hc, or_self, if_false, runXlsx, xlsxEnd, List.nil_append, Bool.false_eq_true]
          exact ih b _ _ ⟨rfl, h2, h3, h4⟩

theorem xlsxSheet_values (styles : List (Str × Nat)) (isNull : Str → Bool) (o : SheetArgs) (d : XmlDoc) :
    xlsxSheet styles isNull o d = xlsxSheet styles isNull o ⟨valueEvents false d.events, d.bad⟩ := by
  unfold xlsxSheet
  simp only
  rw [runXlsx_values styles isNull o d.bad d.events false _ _ ⟨rfl, rfl, fun _ => rfl, fun _ => by simp⟩]

theorem pySlice_take (l : Bytes) (n i j : Nat) (h : j ≤ n) : pySlice (l.take n) i j = pySlice l i j := by
  unfold pySlice
  rw [List.take_take, Nat.min_eq_left h]

theorem xlsbCell_value (styles : List Bytes) (isNull : Str → Bool) (nulls : List Bytes) (cols : List Int) (r : Record)
    (h : r.recId ∈ [2, 4, 5, 6, 7, 8, 9, 10]) :
    xlsbCell styles isNull nulls cols ⟨r.recId, r.data.take r.valueLength⟩ = xlsbCell styles isNull nulls cols r := by
  have h9 : 9 ≤ r.valueLength := by
    unfold Record.valueLength
    simp only [List.mem_cons, List.not_mem_nil, or_false] at h
    split_ifs <;> omega
  unfold xlsbCell
  simp only [pySlice_take _ _ 0 4 (by omega : 4 ≤ r.valueLength), pySlice_take _ _ 4 7 (by omega : 7 ≤ r.valueLength),
    pySlice_take _ _ 8 9 h9]
  split
  · rfl
  split
  · rfl
  split
  · rename_i h6
    have hn : r.recId ≠ 4 ∧ r.recId ≠ 10 ∧ r.recId ≠ 5 ∧ r.recId ≠ 9 ∧ r.recId ≠ 2 ∧ r.recId ≠ 7 := by omega
    have hl : r.valueLength = 12 + 2 * r.charCount := by simp [Record.valueLength, hn, h6]
    rw [pySlice_take _ _ 8 12 (by omega)]
    have hs : pySlice r.data 8 12 = (r.data.drop 8).take 4 := by simp [pySlice, List.drop_take]
    cases hu : unpackI (pySlice r.data 8 12) with
    | error e => rfl
    | ok n =>
      have : r.charCount = n := by
        unfold Record.charCount
        rw [← hs]
        unfold unpackI at hu
        split at hu
        · rename_i e
          rw [e]
          injection hu
        · simp at hu
      simp only
      rw [pySlice_take _ _ 12 (n * 2 + 12) (by omega)]
  split
  · rename_i h6 h5
    have hn : r.recId ≠ 4 ∧ r.recId ≠ 10 := by omega
    have hl : r.valueLength = 16 := by simp [Record.valueLength, hn, h5]
    rw [pySlice_take _ _ 8 16 (by omega)]
  split
  · rfl
  · rename_i h6 h5 h4
    have hl : r.valueLength = 12 := by
      simp only [List.mem_cons, List.not_mem_nil, or_false] at h
      unfold Record.valueLength
      rw [if_neg h4, if_neg h5, if_pos (by omega)]
    rw [pySlice_take _ _ 8 12 (by omega)]

theorem iterXlsb_values (styles : List Bytes) (isNull : Str → Bool) (nulls : Bool → List Bytes) (o : SheetArgs)
    (rs : List Record) (h : ∀ r ∈ rs, r.recId ∈ [0, 2, 4, 5, 6, 7, 8, 9, 10, 402]) :
    ∀ st, iterXlsb styles isNull nulls o (rs.map fun r => ⟨r.recId, r.data.take r.valueLength⟩) st =
      iterXlsb styles isNull nulls o rs st := by
  induction rs with
  | nil => intros; rfl
  | cons r rs ih =>
    intro st
    have ih := ih fun r hr => h r (List.mem_cons_of_mem _ hr)
    have hr := h r List.mem_cons_self
    simp only [List.map_cons, iterXlsb, ih]
    split
    · rfl
    split
    · rfl
    split
    · rfl
    rename_i h0 _ h402
    rw [xlsbCell_value styles isNull _ _ r (by simp only [List.mem_cons, List.not_mem_nil, or_false] at hr ⊢; omega)]

theorem xlsbSheet_values (styles : List Bytes) (isNull : Str → Bool) (nulls : Bool → List Bytes) (o : SheetArgs)
    {b b' : Bytes} (h : SameValueRecords b b') : xlsbSheet styles isNull nulls o b = xlsbSheet styles isNull nulls o b' := by
  rcases h with rfl | ⟨rs, rs', h1, h2, he⟩
  · rfl
  unfold xlsbSheet
  rw [scan_part h1 rfl, scan_part h2 rfl,
    ← iterXlsb_values styles isNull nulls o (rs.filter _) (fun r hr => by simpa [sheetIds] using (List.mem_filter.1 hr).2),
    ← iterXlsb_values styles isNull nulls o (rs'.filter _) (fun r hr => by simpa [sheetIds] using (List.mem_filter.1 hr).2)]
  exact congrArg (fun l => iterXlsb styles isNull nulls o l {}) he

/-- Files whose parts are read alike by the worker are read alike. -/
theorem readFile_parts {A D : Type} (env : Env) (lib : Lib A D) (search : Str → Option (Str → Bool))
    (reMatch : Str → Str → Py Bool) (toInt : Str → Option Int) (a : FileArgs D) (p : Package) (hp : workbookXml ∈ p.names)
    (parts : Str → Option XmlDoc)
    (h : ∀ n, Option.Rel (fun d d' => ∀ styles isNull o, xlsxSheet styles isNull o d = xlsxSheet styles isNull o d')
      (p.xlsx.parts n) (parts n)) :
    readFile env lib search reMatch toInt a { p with xlsx := { p.xlsx with parts := parts } } =
      readFile env lib search reMatch toInt a p := by
  have hf : fileKind p.names = .ok .xlsx := by simp [fileKind, hp]
  unfold readFile
  simp only [hf]
  unfold readXlsx
  simp only [XlsxFile.formats, XlsxFile.strings]
  split
  · rfl
  split
  · rfl
  split
  · rfl
  rename_i path _ _ _ _ _
  have hpath := h path
  cases hd : p.xlsx.parts path with
  | none =>
    rw [hd] at hpath
    generalize parts path = q at hpath ⊢
    cases hpath
    rfl
  | some d =>
    rw [hd] at hpath
    generalize parts path = q at hpath ⊢
    cases hpath with
    | some hl => simp only [openPart, hl]

/-- The same for XLSB, where what counts of a part are the records the worker asks for. -/
theorem readFile_partsB {A D : Type} (env : Env) (lib : Lib A D) (search : Str → Option (Str → Bool))
    (reMatch : Str → Str → Py Bool) (toInt : Str → Option Int) (a : FileArgs D) (p : Package)
    (hp : workbookXml ∉ p.names) (parts : Str → Option Bytes)
    (h : ∀ n, Option.Rel
      (fun b b' => ∀ styles isNull nulls o, xlsbSheet styles isNull nulls o b = xlsbSheet styles isNull nulls o b')
      (p.xlsb.parts n) (parts n)) :
    readFile env lib search reMatch toInt a { p with xlsb := { p.xlsb with parts := parts } } =
      readFile env lib search reMatch toInt a p := by
  unfold readFile
  simp only
  split
  · rfl
  · rename_i hk
    exact absurd hk (by simp only [fileKind, List.contains_eq_mem]; grind)
  unfold readXlsb
  simp only [XlsbFile.temporal, XlsbFile.strings]
  split
  · rfl
  split
  · rfl
  split
  · rfl
  rename_i path _ _ _ _ _
  have hpath := h path
  cases hd : p.xlsb.parts path with
  | none =>
    rw [hd] at hpath
    generalize parts path = q at hpath ⊢
    cases hpath
    rfl
  | some d =>
    rw [hd] at hpath
    generalize parts path = q at hpath ⊢
    cases hpath with
    | some hl => simp only [openPart, hl]

end Rxls
