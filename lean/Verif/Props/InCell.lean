import Verif.Lemmas.InCell
import Verif.Props.ReadFile

/-! # Properties C116 and C117: what is stored in the cells -/

namespace Rxls

/-! ## C116 -/

/-- C116.  The worker delivers from a worksheet part what it delivers from the values of the part alone. -/
theorem C116_sheet (styles : List (Str × Nat)) (isNull : Str → Bool) (o : SheetArgs) (d : XmlDoc) :
    xlsxSheet styles isNull o d = xlsxSheet styles isNull o ⟨valueEvents false d.events, d.bad⟩ :=
  xlsxSheet_values styles isNull o d

/-- C116.  XLSX files whose worksheets have the same values are read alike, whatever the arguments: formulas, properties
of rows and columns, merged ranges, links and the like do not matter. -/
theorem C116_xlsx {A D : Type} (env : Env) (lib : Lib A D) (search : Str → Option (Str → Bool))
    (reMatch : Str → Str → Py Bool) (toInt : Str → Option Int) (a : FileArgs D) (p : Package) (hp : workbookXml ∈ p.names)
    (parts : Str → Option XmlDoc) (h : ∀ n, Option.Rel XmlDoc.SameValues (p.xlsx.parts n) (parts n)) :
    readFile env lib search reMatch toInt a { p with xlsx := { p.xlsx with parts := parts } } =
      readFile env lib search reMatch toInt a p := by
  apply readFile_parts _ _ _ _ _ _ _ hp
  intro n
  have := h n
  generalize p.xlsx.parts n = q, parts n = q' at this
  cases this with
  | none => exact .none
  | some hs =>
    refine .some ?_
    intro styles isNull o
    rw [xlsxSheet_values, hs.1, hs.2]
    exact (xlsxSheet_values styles isNull o _).symm

/-- C116.  The same for XLSB: the bytes behind the value of a cell, which are its formula, the contents of row records,
and records of other kinds do not matter. -/
theorem C116_xlsb {A D : Type} (env : Env) (lib : Lib A D) (search : Str → Option (Str → Bool))
    (reMatch : Str → Str → Py Bool) (toInt : Str → Option Int) (a : FileArgs D) (p : Package)
    (hp : workbookXml ∉ p.names) (parts : Str → Option Bytes)
    (h : ∀ n, Option.Rel SameValueRecords (p.xlsb.parts n) (parts n)) :
    readFile env lib search reMatch toInt a { p with xlsb := { p.xlsb with parts := parts } } =
      readFile env lib search reMatch toInt a p := by
  apply readFile_partsB _ _ _ _ _ _ _ hp
  intro n
  have := h n
  generalize p.xlsb.parts n = q, parts n = q' at this
  cases this with
  | none => exact .none
  | some hs => exact .some fun styles isNull nulls o => xlsbSheet_values styles isNull nulls o hs

/-- A worksheet with the widths of its columns, a hidden row, a shared formula, a note on the cell and a merged range. -/
def exRich : List Xml :=
  [.start "cols".toList [], .start "col".toList [("width".toList, ['9'])], .close "col".toList, .close "cols".toList,
    .start tagRow [("hidden".toList, ['1'])], .start tagC [(attR, ['A', '1'])],
    .start ['f'] [("t".toList, "shared".toList)], .text "B1+1".toList, .close ['f'],
    .start tagV [], .text ['7'], .close tagV,
    .start ['e'] [], .text ['n'], .close ['e'], .close tagC, .close tagRow,
    .start ['m'] [], .text ['8'], .close ['m']]

example : valueEvents false exRich =
    [.start tagC [(attR, ['A', '1'])], .start tagV [], .text ['7'], .close tagC, .close tagRow] := by
  decide +kernel

example :
    let doc : XmlDoc := ⟨exRich, false⟩
    (readFile demoEnv exLib (fun _ => none) (fun _ _ => .ok false) exInt {}
      ⟨[workbookXml], { exXlsxFile with parts := fun _ => some doc }, exFile⟩).map (·.arrays) =
    .ok [.arr ⟨.utf8, [some (.str ['7'])]⟩] := by
  decide +kernel

/-- A number computed by a formula, and a row record with properties. -/
def exFmlaPart : List Record :=
  [⟨0, [0, 0, 0, 0, 1, 2, 3]⟩, ⟨9, [0, 0, 0, 0, 0, 0, 0, 0, 0, 0, 0, 0, 0, 0, 240, 63, 16, 0, 30, 1, 0]⟩, ⟨62, [1]⟩, ⟨402, []⟩]

example : valueRecords exFmlaPart =
    [⟨0, []⟩, ⟨9, [0, 0, 0, 0, 0, 0, 0, 0, 0, 0, 0, 0, 0, 0, 240, 63]⟩, ⟨402, []⟩] := by
  decide +kernel

example : (readFile demoEnv exLib (fun _ => none) (fun _ _ => .ok false) exInt {}
      ⟨[workbookBin], exXlsxFile, { exFile with parts := fun _ => some (bytesOf exFmlaPart) }⟩).map (·.arrays) =
    (readFile demoEnv exLib (fun _ => none) (fun _ _ => .ok false) exInt {}
      ⟨[workbookBin], exXlsxFile, { exFile with parts := fun _ => some (bytesOf (valueRecords exFmlaPart)) }⟩).map (·.arrays) := by
  decide +kernel

/-! ## C117 -/

theorem valueTexts_other (body : List Xml) (h : ∀ e ∈ body, ∀ a, e ≠ .start tagV a) :
    ∀ l, l ≠ tagV → valueTexts l body = [] := by
  induction body with
  | nil => intros; rfl
  | cons e body ih =>
    intro l hl
    have ih := ih fun e he => h e (List.mem_cons_of_mem _ he)
    cases e with
    | start t a =>
      have : t ≠ tagV := fun e => h _ List.mem_cons_self a (by rw [e])
      exact ih t this
    | text s => simp only [valueTexts, if_neg hl]; exact ih l hl
    | close t => exact ih l hl

theorem isInline_items (styles : List (Str × Nat)) (isNull : Str → Bool) (cols : List Int) (c : XCell)
    (h : c.isInline = true) : c.items styles isNull cols = [] := by
  unfold XCell.isInline at h
  simp only [Bool.and_eq_true, List.all_eq_true] at h
  unfold XCell.items
  rw [valueTexts_other c.body ?_ tagC (by decide)]
  · rfl
  · intro e he a hea
    have := h.2 e he
    rw [hea] at this
    simp at this

theorem withoutInline_ok {s : XSheet} (h : s.Ok) : s.withoutInline.Ok where
  pre := h.pre
  post := h.post
  body := by
    intro r hr c hc
    obtain ⟨r0, hr0, rfl⟩ := List.mem_map.1 hr
    exact h.body r0 hr0 c (List.mem_filter.1 hc).1
  ref := by
    intro r hr c hc
    obtain ⟨r0, hr0, rfl⟩ := List.mem_map.1 hr
    exact h.ref r0 hr0 c (List.mem_filter.1 hc).1

theorem withoutInline_items (styles : List (Str × Nat)) (isNull : Str → Bool) (cols : List Int) (r : XRow) :
    XRow.items styles isNull cols { r with cells := r.cells.filter fun c => !c.isInline } = r.items styles isNull cols := by
  obtain ⟨a, cells⟩ := r
  simp only [XRow.items]
  induction cells with
  | nil => rfl
  | cons c cells ih =>
    by_cases h : c.isInline = true
    · simp [h, ih, isInline_items styles isNull cols c h]
    · simp [h, ih]

theorem xlsxSheet_inline (styles : List (Str × Nat)) (isNull : Str → Bool) (o : SheetArgs) {d d' : XmlDoc}
    (h : d.LosesInline d') : xlsxSheet styles isNull o d = xlsxSheet styles isNull o d' := by
  rcases h with rfl | ⟨s, bad, hs, rfl, rfl⟩
  · rfl
  · rw [sheet_rows s hs, sheet_rows _ (withoutInline_ok hs)]
    have : s.withoutInline.rows.map (XRow.items styles isNull o.skipCols) =
        s.rows.map (XRow.items styles isNull o.skipCols) := by
      simp only [XSheet.withoutInline, List.map_map]
      exact List.map_congr_left fun r _ => withoutInline_items styles isNull o.skipCols r
    rw [this]

/-- C117, negated for XLSX: whatever the arguments, the cells with a text of their own may as well be taken out of the
file. -/
theorem C117_xlsx_lost {A D : Type} (env : Env) (lib : Lib A D) (search : Str → Option (Str → Bool))
    (reMatch : Str → Str → Py Bool) (toInt : Str → Option Int) (a : FileArgs D) (p : Package) (hp : workbookXml ∈ p.names)
    (parts : Str → Option XmlDoc) (h : ∀ n, Option.Rel XmlDoc.LosesInline (p.xlsx.parts n) (parts n)) :
    readFile env lib search reMatch toInt a { p with xlsx := { p.xlsx with parts := parts } } =
      readFile env lib search reMatch toInt a p := by
  apply readFile_parts _ _ _ _ _ _ _ hp
  intro n
  have := h n
  generalize p.xlsx.parts n = q, parts n = q' at this
  cases this with
  | none => exact .none
  | some hs => exact .some fun styles isNull o => xlsxSheet_inline styles isNull o hs

/-- C117, negated for the formatted texts of XLSB. -/
theorem C117_xlsb_rich_lost {A D : Type} (env : Env) (lib : Lib A D) (search : Str → Option (Str → Bool))
    (reMatch : Str → Str → Py Bool) (toInt : Str → Option Int) (a : FileArgs D) (p : Package)
    (hp : workbookXml ∉ p.names) (parts : Str → Option Bytes)
    (h : ∀ n, Option.Rel LosesRichRecords (p.xlsb.parts n) (parts n)) :
    readFile env lib search reMatch toInt a { p with xlsb := { p.xlsb with parts := parts } } =
      readFile env lib search reMatch toInt a p := by
  apply C116_xlsb _ _ _ _ _ _ _ hp
  intro n
  have := h n
  generalize p.xlsb.parts n = q, parts n = q' at this
  cases this with
  | none => exact .none
  | some hs =>
    refine .some ?_
    rcases hs with rfl | ⟨rs, h1, h2⟩
    · exact .inl rfl
    · refine .inr ⟨rs, _, h1, h2, ?_⟩
      unfold valueRecords
      rw [List.filter_filter]
      congr 1
      apply List.filter_congr
      intro r _
      by_cases hr : r.recId = 62
      · simp [hr]
      · simp [Record.isRich, hr]

/-- C117 for the plain texts of XLSB, which are read: a cell of record 6 or 8 is delivered with its text, unless that is
a null or its column is not asked for; the formatted texts are missing. -/
theorem C117_xlsb_partial (styles : List Bytes) (isNull : Str → Bool) (nulls : List Bytes) (cols : List Int)
    (kind : Nat) (hk : kind = 6 ∨ kind = 8) (col : Bytes) (n : Nat) (style size body more : Bytes) (text : Str)
    (hcol : unpackI col = .ok n) (hst : style.length = 4)
    (hsize : unpackI size = .ok (body.length / 2)) (heven : body.length % 2 = 0) (hbody : decodeUtf16 body = .ok text) :
    xlsbCell styles isNull nulls cols ⟨kind, col ++ style ++ size ++ body ++ more⟩ =
      .ok (if (n : Int) ∈ cols ∨ isNull text = true then none
        else some ((n : Int), TYPE_STRING ||| REPR_PREPARED, .text text)) := by
  have hc4 : col.length = 4 := by
    unfold unpackI at hcol
    split at hcol
    · rfl
    · simp at hcol
  have hs4 : size.length = 4 := by
    unfold unpackI at hsize
    split at hsize
    · rfl
    · simp at hsize
  have e1 : pySlice (col ++ style ++ size ++ body ++ more) 0 4 = col := by
    simp [pySlice, hc4]
  have e2 : pySlice (col ++ style ++ size ++ body ++ more) 8 12 = size := by
    have : (col ++ style ++ size ++ body ++ more) = (col ++ style) ++ (size ++ (body ++ more)) := by simp
    rw [this]
    unfold pySlice
    have h8 : (col ++ style).length = 8 := by simp [hc4, hst]
    rw [List.take_append, h8, List.take_of_length_le (by omega), List.drop_append_of_le_length (by omega),
      List.drop_of_length_le (by omega), List.nil_append, List.take_append_of_le_length (by omega),
      List.take_of_length_le (by omega)]
  have e3 : pySlice (col ++ style ++ size ++ body ++ more) 12 (body.length / 2 * 2 + 12) = body := by
    have : (col ++ style ++ size ++ body ++ more) = (col ++ style ++ size) ++ (body ++ more) := by simp
    rw [this]
    unfold pySlice
    have h12 : (col ++ style ++ size).length = 12 := by simp [hc4, hst, hs4]
    have hb : body.length / 2 * 2 = body.length := by omega
    rw [List.take_append, h12, List.take_of_length_le (by omega), List.drop_append_of_le_length (by omega),
      List.drop_of_length_le (by omega), List.nil_append, List.take_append_of_le_length (by omega),
      List.take_of_length_le (by omega)]
  unfold xlsbCell
  simp only [e1, hcol, e2, hsize, e3, hbody, if_pos hk]
  by_cases hm : (n : Int) ∈ cols
  · have : cols.isEmpty = false := by cases cols <;> simp_all
    simp [hm, this]
  · by_cases hn : isNull text = true <;> simp [hm, hn]

/-- A sheet whose cells hold their texts themselves, as many programs write it: `name | n`, `a | 1`, `b | 2`. -/
def exInlineSheet (inline : Bool) : XSheet :=
  let cell (ref : Str) (s : Str) : XCell :=
    if inline then ⟨[(attR, ref), (attT, inlineStrType)],
        [.start tagIs [], .start ['t'] [], .text s, .close ['t'], .close tagIs]⟩
      else ⟨[(attR, ref), (attT, "str".toList)], [.start tagV [], .text s, .close tagV]⟩
  let num (ref : Str) (s : Str) : XCell := ⟨[(attR, ref), (attS, ['2'])], [.start tagV [], .text s, .close tagV]⟩
  ⟨[], [⟨[], [cell ['A', '1'] "name".toList, cell ['B', '1'] ['n']]⟩,
    ⟨[], [cell ['A', '2'] ['a'], num ['B', '2'] ['1']]⟩, ⟨[], [cell ['A', '3'] ['b'], num ['B', '3'] ['2']]⟩], []⟩

/-- What `read` gives for it, with that many header rows. -/
def exInlineRead (header : Int) (s : XSheet) : Py (List Str × List Fetched) :=
  let doc : XmlDoc := ⟨s.events, false⟩
  (readFile demoEnv exLib (fun _ => none) (fun _ _ => .ok false) exInt
      { table := { header := .rows header } }
      ⟨[workbookXml], { exXlsxFile with parts := fun _ => some doc }, exFile⟩).map fun t => (t.names, t.arrays)

/-- Finding: of `name | n`, `a | 1`, `b | 2` with one header row the column of the names is gone, the row of headers is
gone too, and the first number is taken for the header. -/
theorem C117_inline_finding :
    exInlineRead 1 (exInlineSheet true) = .ok ([['1']], [.arr ⟨.i8, [some (.i8 2)]⟩]) ∧
    exInlineRead 1 (exInlineSheet false) = .ok (["name".toList, ['n']],
      [.arr ⟨.utf8, [some (.str ['a']), some (.str ['b'])]⟩, .arr ⟨.i8, [some (.i8 1), some (.i8 2)]⟩]) := by
  decide +kernel

/-- Finding: a sheet with nothing but such texts is refused. -/
theorem C117_inline_refused :
    exInlineRead 0 { exInlineSheet true with rows := (exInlineSheet true).rows.take 1 } = .error .valueError := by
  decide +kernel

example : (exInlineSheet true).withoutInline.rows.map (·.cells.length) = [0, 1, 1] := by decide +kernel

example : xlsbCell [] (fun _ => false) [] [] ⟨6, [1, 0, 0, 0, 0, 0, 0, 0, 2, 0, 0, 0, 104, 0, 105, 0]⟩ =
    .ok (some (1, TYPE_STRING ||| REPR_PREPARED, .text ['h', 'i'])) := by
  decide +kernel

end Rxls
