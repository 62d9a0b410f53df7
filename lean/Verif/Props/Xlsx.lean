import Verif.Lemmas.Xlsx
import Verif.Props.Rels
import Verif.Props.Xlsb

/-! # Properties C38 to C43 and C45: rows and cells of an XLSX sheet -/

namespace Rxls

/-! ## C42 -/

/-- C42, empty rows not counted (the default of `read`).  Every sheet is delivered completely: the values of the row
elements from the first non-empty row on, in order, that row having number 0 and every row element after it
counting. -/
theorem C42_rows_in_place (styles : List (Str × Nat)) (isNull : Str → Bool) (s : XSheet) (hs : s.Ok) :
    let L := s.rows.map (XRow.items styles isNull [])
    evCells (xlsxSheet styles isNull { keepEmpty := false } ⟨s.events, false⟩).1 =
        numbered true (L.dropWhile List.isEmpty) ∧
      (xlsxSheet styles isNull { keepEmpty := false } ⟨s.events, false⟩).2 = .finished := by
  obtain ⟨h1, _, h3⟩ := sheet_drop (styles := styles) (isNull := isNull) (bad := false) s hs 0 [] _ rfl
  exact ⟨h1, by simpa [exitOf] using h3⟩

/-- C42, empty rows counted, first row not empty: the values of all row elements, numbered from 0. -/
theorem C42_rows_in_place_keep (styles : List (Str × Nat)) (isNull : Str → Bool) (s : XSheet) (hs : s.Ok)
    (hne : (s.rows.map (XRow.items styles isNull [])).head? ≠ some []) :
    evCells (xlsxSheet styles isNull {} ⟨s.events, false⟩).1 =
        numbered true (s.rows.map (XRow.items styles isNull [])) ∧
      (xlsxSheet styles isNull {} ⟨s.events, false⟩).2 = .finished := by
  obtain ⟨h1, _, h3⟩ := sheet_keep (styles := styles) (isNull := isNull) (bad := false) s hs 0 0 [] _ rfl
  have h0 : leadingEmpty (s.rows.map (XRow.items styles isNull [])) = 0 := by
    cases hL : s.rows.map (XRow.items styles isNull []) with
    | nil => rfl
    | cons is L =>
      rw [leadingEmpty_cons]
      rw [hL] at hne
      cases is with
      | nil => simp at hne
      | cons => simp
  simp only [List.drop_zero, h0, Nat.mul_zero, Nat.add_zero, winRows, if_true] at h1 h3
  exact ⟨h1, by simpa [exitOf] using h3⟩

/-- C42.  A cell with the reference of column `n` and one `v` element yields the column, the tag of its type and
style, and the text without surrounding whitespace; it yields nothing exactly when that text is blank or null.
What comes before the `v` element (a formula) does not matter. -/
theorem C42_cell (styles : List (Str × Nat)) (isNull : Str → Bool) (attrs va : List (Str × Str)) (n : Nat)
    (digits : Bytes) (hd : IsDigits digits) (before : List Xml) (hb : ∀ e ∈ before, ∀ a, e ≠ .start tagV a)
    (txt : Str)
    (href : attrGet attrs attR = some ((colName n ++ digits).map fun x => Char.ofNat x.toNat)) :
    XCell.items styles isNull [] ⟨attrs, before ++ [.start tagV va, .text txt, .close tagV]⟩ =
      if pyStrip txt = [] ∨ isNull (pyStrip txt) = true then []
      else [((n : Int),
        (if attrGet attrs attT = some ['s'] then 0x11
          else match styles.find? fun p => p.1 = (attrGet attrs attS).getD ['0'] with
            | some p => if p.2 ≠ 0 then p.2 else 0x18
            | none => 0x18), .text (pyStrip txt))] := by
  have hascii : ∀ x ∈ colName n ++ digits, x.toNat < 128 := by
    have hcol : ∀ m, ∀ x ∈ colName m, x.toNat < 128 := by
      intro m
      induction m using Nat.strong_induction_on with
      | _ m ih =>
        intro x hx
        rw [colName] at hx
        split at hx
        · simp only [List.mem_singleton] at hx
          subst hx
          rw [UInt8.toNat_ofNat_of_lt' (by simp [UInt8.size]; omega)]
          omega
        · rw [List.mem_append] at hx
          rcases hx with hx | hx
          · exact ih _ (by omega) x hx
          · simp only [List.mem_singleton] at hx
            subst hx
            rw [UInt8.toNat_ofNat_of_lt' (by simp [UInt8.size]; omega)]
            omega
    intro x hx
    rcases List.mem_append.1 hx with hx | hx
    · exact hcol n x hx
    · have := hd x hx; omega
  have hcol : XCell.col ⟨attrs, before ++ [.start tagV va, .text txt, .close tagV]⟩ = n := by
    simp only [XCell.col, href, Option.getD_some]
    rw [utf8_bytes _ hascii, C13_column_index n digits hd]
  obtain ⟨l', hl', hv⟩ := valueTexts_none before [.start tagV va, .text txt, .close tagV] hb tagC (by decide)
  have hv' : valueTexts tagC (before ++ [.start tagV va, .text txt, .close tagV]) = [txt] := by
    rw [hv]; simp [valueTexts]
  unfold XCell.items
  simp only [hv', hcol]
  by_cases h : pyStrip txt = [] ∨ isNull (pyStrip txt) = true
  · rw [if_pos h]
    rcases h with h | h <;> simp [h]
  · rw [if_neg h]
    push Not at h
    simp [h.1, h.2, xlsxType, TYPE_STRING, REPR_SHARED, REPR_PREPARED]
    rfl

/-- C42.  Whitespace between or around the elements makes no difference. -/
theorem C42_whitespace (styles : List (Str × Nat)) (isNull : Str → Bool) (o : SheetArgs) (bad : Bool)
    (evs : List Xml) :
    xlsxSheet styles isNull o
        ⟨evs.filter Xml.solid, bad⟩ =
      xlsxSheet styles isNull o ⟨evs, bad⟩ := by
  simp only [xlsxSheet, run_blank]

/-- A cell with one value. -/
def exCell (ref txt : Str) : XCell := ⟨[(attR, ref)], [.start tagV [], .text txt, .close tagV]⟩

/-- A sheet with the values of column A given row by row (`none`: an empty row). -/
def exColumn (l : List (Option Str)) : XSheet :=
  ⟨[.start ['s'] []], l.map fun t => ⟨[], match t with | some t => [exCell ['A', '1'] t] | none => []⟩, [.close ['s']]⟩

/-- Three rows, two columns, a formula, a shared string, a styled number and an empty row. -/
def exXlsx : XSheet :=
  ⟨[.start ['s'] []],
   [⟨[], [⟨[(attR, ['A', '1']), (attT, ['s'])], [.start tagV [], .text ['7'], .close tagV]⟩,
          ⟨[(attR, ['B', '1']), (attS, ['1'])],
            [.start ['f'] [], .text ['x'], .close ['f'], .start tagV [], .text ['4', ' '], .close tagV]⟩]⟩,
    ⟨[], []⟩, ⟨[], [exCell ['A', 'B', '3'] ['q']]⟩], [.close ['s']]⟩

example : evCells (xlsxSheet [(['1'], 0x24)] (fun _ => false) {} ⟨exXlsx.events, false⟩).1 =
    [⟨0, 0, 0x11, .text ['7']⟩, ⟨0, 1, 0x24, .text ['4']⟩, ⟨2, 27, 0x18, .text ['q']⟩] := by
  decide +kernel

/-- Finding: with empty rows counted and `e > 0` empty rows at the top the sheet is cut after `2 e + 1` rows although
no limit is given: `take_rows` is raised by two for every leading empty row, and no longer means "no limit". -/
theorem C42_cut_after_leading_empty_rows (styles : List (Str × Nat)) (isNull : Str → Bool) (s : XSheet) (hs : s.Ok)
    (he : (s.rows.map (XRow.items styles isNull [])).head? = some []) :
    let L := s.rows.map (XRow.items styles isNull [])
    evCells (xlsxSheet styles isNull {} ⟨s.events, false⟩).1 =
      numbered true (L.take (2 * leadingEmpty L + 1)) := by
  obtain ⟨h1, _, _⟩ := sheet_keep (styles := styles) (isNull := isNull) (bad := false) s hs 0 0 [] _ rfl
  have h0 : leadingEmpty (s.rows.map (XRow.items styles isNull [])) ≠ 0 := by
    cases hL : s.rows.map (XRow.items styles isNull []) with
    | nil => rw [hL] at he; simp at he
    | cons is L =>
      rw [hL] at he
      simp only [List.head?_cons, Option.some.injEq] at he
      rw [leadingEmpty_cons, he]
      simp
  simp only [List.drop_zero] at h1
  simp only
  rw [h1, winRows, if_neg (by omega)]
  simp [numberedFrom, numbered]

example : evCells (xlsxSheet [] (fun _ => false) {}
      ⟨(exColumn [none, some ['1'], some ['2'], some ['3'], some ['4']]).events, false⟩).1 =
    [⟨1, 0, 0x18, .text ['1']⟩, ⟨2, 0, 0x18, .text ['2']⟩] := by
  decide +kernel

/-- Findings: an inline string is lost; a boolean is delivered as the text `1`, a number without style as text; a text
that expat hands over in two pieces (longer than its buffer) becomes two cells in one place. -/
theorem C42_cell_findings :
    XCell.items [] (fun _ => false) [] ⟨[(attR, ['A', '1']), (attT, "inlineStr".toList)],
      [.start ['i', 's'] [], .start ['t'] [], .text ['x'], .close ['t'], .close ['i', 's']]⟩ = [] ∧
    XCell.items [] (fun _ => false) [] ⟨[(attR, ['A', '1']), (attT, ['b'])],
      [.start tagV [], .text ['1'], .close tagV]⟩ = [(0, 0x18, .text ['1'])] ∧
    XCell.items [] (fun _ => false) [] ⟨[(attR, ['A', '1'])],
      [.start tagV [], .text ['1', '.', '5'], .close tagV]⟩ = [(0, 0x18, .text ['1', '.', '5'])] ∧
    XCell.items [] (fun _ => false) [] ⟨[(attR, ['A', '1'])],
      [.start tagV [], .text ['a', ' '], .text ['b'], .close tagV]⟩ =
        [(0, 0x18, .text ['a']), (0, 0x18, .text ['b'])] := by
  decide +kernel

/-! ## C38 -/

/-- C38, exact behaviour of the XLSX reader when empty rows are counted: from row `k` on, `t + 2 k + 2 e + 1` rows are
delivered, `e` the number of rows without a value from row `k` on; all rows if `k`, `t` and `e` are 0. -/
theorem C38_xlsx_window_exact (styles : List (Str × Nat)) (isNull : Str → Bool) (k t : Nat) (cols : List Int)
    (s : XSheet) (hs : s.Ok) :
    let L := (s.rows.map (XRow.items styles isNull cols)).drop k
    evCells (xlsxSheet styles isNull ⟨k, t, true, cols⟩ ⟨s.events, false⟩).1 =
      numbered true (if t + k + leadingEmpty L = 0 then L else L.take (t + 2 * k + 2 * leadingEmpty L + 1)) := by
  obtain ⟨h1, _, _⟩ := sheet_keep (styles := styles) (isNull := isNull) (bad := false) s hs k t cols _ rfl
  simp only
  rw [h1, winRows]
  by_cases h : t + k + leadingEmpty ((s.rows.map (XRow.items styles isNull cols)).drop k) = 0
  · rw [if_pos (by omega), if_pos h]
    simp [numberedFrom, numbered]
  · rw [if_neg (by omega), if_neg h]
    rw [show ∀ e, t + 3 * k + 2 * e - k + 1 = t + 2 * k + 2 * e + 1 by intro e; omega]
    simp [numberedFrom, numbered]

/-- C38, partial, XLSX: with empty rows counted the rows from `k` on are delivered if there are at most
`t + 2 k + 1` of them. -/
theorem C38_xlsx_skip_rows_partial (styles : List (Str × Nat)) (isNull : Str → Bool) (k t : Nat) (cols : List Int)
    (s : XSheet) (hs : s.Ok) (hlen : s.rows.length ≤ t + 3 * k + 1) :
    evCells (xlsxSheet styles isNull ⟨k, t, true, cols⟩ ⟨s.events, false⟩).1 =
      numbered true ((s.rows.map (XRow.items styles isNull cols)).drop k) := by
  have h := C38_xlsx_window_exact styles isNull k t cols s hs
  simp only at h
  rw [h]
  split
  · rfl
  · rw [List.take_of_length_le (by simp; omega)]

/-- Finding: with empty rows not counted (the default) and `skip_rows > 0` no cell of any sheet is delivered. -/
theorem C38_xlsx_default_delivers_nothing (styles : List (Str × Nat)) (isNull : Str → Bool) (k t : Nat)
    (hk : 0 < k) (cols : List Int) (s : XSheet) (hs : s.Ok) :
    evCells (xlsxSheet styles isNull ⟨k, t, false, cols⟩ ⟨s.events, false⟩).1 = [] := by
  rw [sheet_rows s hs]
  simp only [runX_stuck ⟨k, t, false, cols⟩ false rfl hk]
  rw [evCells_callback, evCells_replicate]

/-- Finding: five rows with values, `skip_rows = 1`: three rows are delivered from the XLSX file, the last one is
missing.  (From an XLSB file only one row is delivered, `C38_only_one_row`.) -/
theorem C38_xlsx_cut :
    evCells (xlsxSheet [] (fun _ => false) { skipRows := 1 }
      ⟨(exColumn [some ['1'], some ['2'], some ['3'], some ['4'], some ['5']]).events, false⟩).1 =
    [⟨0, 0, 0x18, .text ['2']⟩, ⟨1, 0, 0x18, .text ['3']⟩, ⟨2, 0, 0x18, .text ['4']⟩] := by
  decide +kernel

/-! ## C39 -/

/-- C39, XLSX, empty rows not counted: with `take_rows = t > 0` exactly the cells of rows `0..t` of the unlimited
iteration. -/
theorem C39_xlsx_take_rows (styles : List (Str × Nat)) (isNull : Str → Bool) (cols : List Int) (t : Nat)
    (ht : 0 < t) (s : XSheet) (hs : s.Ok) :
    evCells (xlsxSheet styles isNull ⟨0, t, false, cols⟩ ⟨s.events, false⟩).1 =
      (evCells (xlsxSheet styles isNull ⟨0, 0, false, cols⟩ ⟨s.events, false⟩).1).filter
        fun c => decide (c.row ≤ t) := by
  obtain ⟨h1, _, _⟩ := sheet_drop (styles := styles) (isNull := isNull) (bad := false) s hs t cols _ rfl
  obtain ⟨h2, _, _⟩ := sheet_drop (styles := styles) (isNull := isNull) (bad := false) s hs 0 cols _ rfl
  rw [h1, h2]
  simp only [winRows, if_neg (show ¬ t = 0 by omega), if_true, Nat.sub_zero]
  have := numberedFrom_take ((s.rows.map (XRow.items styles isNull cols)).dropWhile List.isEmpty) t 0
  rw [Nat.zero_add] at this
  exact this.symm

/-- C39, XLSX, empty rows counted: the same if the first row is not empty. -/
theorem C39_xlsx_take_rows_keep (styles : List (Str × Nat)) (isNull : Str → Bool) (cols : List Int) (t : Nat)
    (ht : 0 < t) (s : XSheet) (hs : s.Ok) (hne : leadingEmpty (s.rows.map (XRow.items styles isNull cols)) = 0) :
    evCells (xlsxSheet styles isNull ⟨0, t, true, cols⟩ ⟨s.events, false⟩).1 =
      (evCells (xlsxSheet styles isNull ⟨0, 0, true, cols⟩ ⟨s.events, false⟩).1).filter
        fun c => decide (c.row ≤ t) := by
  obtain ⟨h1, _, _⟩ := sheet_keep (styles := styles) (isNull := isNull) (bad := false) s hs 0 t cols _ rfl
  obtain ⟨h2, _, _⟩ := sheet_keep (styles := styles) (isNull := isNull) (bad := false) s hs 0 0 cols _ rfl
  rw [h1, h2]
  simp only [winRows, List.drop_zero, hne, Nat.mul_zero, Nat.add_zero, if_neg (show ¬ t = 0 by omega), if_true,
    Nat.sub_zero]
  have := numberedFrom_take (s.rows.map (XRow.items styles isNull cols)) t 0
  rw [Nat.zero_add] at this
  exact this.symm

example : evCells (xlsxSheet [] (fun _ => false) { takeRows := 1, keepEmpty := false }
      ⟨(exColumn [none, some ['1'], some ['2'], some ['3']]).events, false⟩).1 =
    [⟨0, 0, 0x18, .text ['1']⟩, ⟨1, 0, 0x18, .text ['2']⟩] := by
  decide +kernel

/-- Finding: with a leading empty row that is counted, `take_rows = 1` delivers rows 1 to 3. -/
theorem C39_xlsx_too_many :
    evCells (xlsxSheet [] (fun _ => false) { takeRows := 1 }
      ⟨(exColumn [none, some ['1'], some ['2'], some ['3'], some ['4']]).events, false⟩).1 =
    [⟨1, 0, 0x18, .text ['1']⟩, ⟨2, 0, 0x18, .text ['2']⟩, ⟨3, 0, 0x18, .text ['3']⟩] := by
  decide +kernel

/-! ## C40 -/

/-- C40, XLSX.  With `skip_cols`, if no row becomes empty, exactly the cells of the other columns are delivered, with
the same row numbers. -/
theorem C40_xlsx_skip_cols (styles : List (Str × Nat)) (isNull : Str → Bool) (keep : Bool) (cols : List Int)
    (s : XSheet) (hs : s.Ok)
    (hne : ∀ is ∈ s.rows.map (XRow.items styles isNull []), is ≠ [] → ∃ i ∈ is, i.1 ∉ cols) :
    evCells (xlsxSheet styles isNull ⟨0, 0, keep, cols⟩ ⟨s.events, false⟩).1 =
      (evCells (xlsxSheet styles isNull ⟨0, 0, keep, []⟩ ⟨s.events, false⟩).1).filter
        fun c => !cols.contains c.col := by
  set L := s.rows.map (XRow.items styles isNull []) with hL
  have hL' : s.rows.map (XRow.items styles isNull cols) =
      L.map fun is => is.filter fun i => !cols.contains i.1 := by
    rw [hL, List.map_map]
    apply List.map_congr_left
    intro r _
    exact items_skip cols r
  have hem : ∀ is ∈ L, (is.filter fun i => !cols.contains i.1).isEmpty = is.isEmpty := by
    intro is his
    by_cases h0 : is = []
    · simp [h0]
    · obtain ⟨i, hi, hc⟩ := hne is his h0
      have h1 : i ∈ is.filter fun i => !cols.contains i.1 := by simp [hi, hc]
      cases hf : is.filter fun i => !cols.contains i.1 with
      | nil => rw [hf] at h1; simp at h1
      | cons =>
        cases is with
        | nil => simp at h0
        | cons => rfl
  obtain ⟨hd, hle⟩ := dropWhile_map_empty _ L hem
  cases keep with
  | false =>
    obtain ⟨h1, _, _⟩ := sheet_drop (styles := styles) (isNull := isNull) (bad := false) s hs 0 cols _ hL'.symm
    obtain ⟨h2, _, _⟩ := sheet_drop (styles := styles) (isNull := isNull) (bad := false) s hs 0 [] _ hL
    rw [h1, h2]
    simp only [winRows, if_true]
    rw [hd]
    exact numberedFrom_filter true (fun c => !cols.contains c) _ (Or.inl rfl) 0
  | true =>
    obtain ⟨h1, _, _⟩ := sheet_keep (styles := styles) (isNull := isNull) (bad := false) s hs 0 0 cols _ hL'.symm
    obtain ⟨h2, _, _⟩ := sheet_keep (styles := styles) (isNull := isNull) (bad := false) s hs 0 0 [] _ hL
    rw [h1, h2]
    simp only [winRows, List.drop_zero, hle]
    split
    · exact numberedFrom_filter true (fun c => !cols.contains c) _ (Or.inl rfl) 0
    · rw [← List.map_take]
      exact numberedFrom_filter true (fun c => !cols.contains c) _ (Or.inl rfl) 0

example : evCells (xlsxSheet [(['1'], 0x24)] (fun _ => false) { skipCols := [0] } ⟨exXlsx.events, false⟩).1 =
      [⟨0, 1, 0x24, .text ['4']⟩, ⟨2, 27, 0x18, .text ['q']⟩] ∧
    ∀ is ∈ exXlsx.rows.map (XRow.items [(['1'], 0x24)] (fun _ => false) []), is ≠ [] →
      ∃ i ∈ is, i.1 ∉ ([0] : List Int) := by
  decide +kernel

/-! ## C41 -/

/-- C41, XLSX, no limits: one callback at the start and one per row element (with empty rows counted, if the first
row is not empty). -/
theorem C41_xlsx_callbacks (styles : List (Str × Nat)) (isNull : Str → Bool) (keep : Bool) (cols : List Int)
    (s : XSheet) (hs : s.Ok)
    (hne : keep = true → leadingEmpty (s.rows.map (XRow.items styles isNull cols)) = 0) :
    evCallbacks (xlsxSheet styles isNull ⟨0, 0, keep, cols⟩ ⟨s.events, false⟩).1 = 1 + s.rows.length := by
  cases keep with
  | false =>
    obtain ⟨_, h2, _⟩ := sheet_drop (styles := styles) (isNull := isNull) (bad := false) s hs 0 cols _ rfl
    rw [h2]
    have := leadingEmpty_add (s.rows.map (XRow.items styles isNull cols))
    simp only [winRows, if_true, List.length_map] at this ⊢
    omega
  | true =>
    obtain ⟨_, h2, _⟩ := sheet_keep (styles := styles) (isNull := isNull) (bad := false) s hs 0 0 cols _ rfl
    rw [h2]
    simp [winRows, hne rfl]

/-- C41, XLSX, empty rows not counted, `take_rows = t > 0`: one callback at the start and one per row element read,
which are the leading empty rows and `t + 1` more. -/
theorem C41_xlsx_callbacks_limit (styles : List (Str × Nat)) (isNull : Str → Bool) (cols : List Int) (t : Nat)
    (ht : 0 < t) (s : XSheet) (hs : s.Ok) :
    evCallbacks (xlsxSheet styles isNull ⟨0, t, false, cols⟩ ⟨s.events, false⟩).1 =
      1 + min s.rows.length (leadingEmpty (s.rows.map (XRow.items styles isNull cols)) + t + 1) := by
  obtain ⟨_, h2, _⟩ := sheet_drop (styles := styles) (isNull := isNull) (bad := false) s hs t cols _ rfl
  rw [h2]
  have := leadingEmpty_add (s.rows.map (XRow.items styles isNull cols))
  simp only [winRows, if_neg (show ¬ t = 0 by omega), List.length_map, List.length_take, Nat.sub_zero] at this ⊢
  omega

example : evCallbacks (xlsxSheet [] (fun _ => false) { takeRows := 1, keepEmpty := false }
      ⟨(exColumn [none, some ['1'], some ['2'], some ['3']]).events, false⟩).1 = 4 ∧
    evCallbacks (xlsxSheet [] (fun _ => false) {} ⟨exXlsx.events, false⟩).1 = 4 := by
  decide +kernel

/-! ## C43 -/

/-- Row and column of a cell. -/
def place (c : Cell) : Nat × Int := (c.row, c.col)

/-- C43, partial: the two readers give the same rows and columns for the same logical sheet (rows with values in the
same columns) if no empty row comes after a non-empty one or empty rows are counted, and the first row is not empty
or empty rows are not counted.  Missing: the other cases, where they differ, see below. -/
theorem C43_agree_partial (xst : List (Str × Nat)) (bst : List Bytes) (isNull : Str → Bool) (nulls : List Bytes)
    (keep : Bool) (s : XSheet) (hs : s.Ok) (p : SheetParts) (hp : p.Ok) (L : List (List Item))
    (hL : sheetItems (xlsbCell bst isNull nulls []) p.rows = .ok L)
    (hsame : L.map (List.map Prod.fst) = (s.rows.map (XRow.items xst isNull [])).map (List.map Prod.fst))
    (hk : keep = true → leadingEmpty L = 0)
    (hd : keep = false → ∀ is ∈ L.dropWhile List.isEmpty, is ≠ []) :
    ∃ evs, iterXlsb bst isNull (fun _ => nulls) { keepEmpty := keep } p.records {} = .ok evs ∧
      (evCells evs).map place =
        (evCells (xlsxSheet xst isNull { keepEmpty := keep } ⟨s.events, false⟩).1).map place := by
  have h0 := C37_rows_in_place bst isNull nulls keep p hp
  rw [hL] at h0
  obtain ⟨evs, he⟩ : ∃ evs, iterXlsb bst isNull (fun _ => nulls) { keepEmpty := keep } p.records {} = .ok evs := by
    cases h : iterXlsb bst isNull (fun _ => nulls) { keepEmpty := keep } p.records {} with
    | error e => rw [h] at h0; simp [Except.map] at h0
    | ok evs => exact ⟨evs, rfl⟩
  rw [he] at h0
  simp only [Except.map, Except.ok.injEq] at h0
  refine ⟨evs, he, ?_⟩
  rw [h0]
  set X := s.rows.map (XRow.items xst isNull []) with hX
  cases keep with
  | true =>
    obtain ⟨h1, _, _⟩ := sheet_keep (styles := xst) (isNull := isNull) (bad := false) s hs 0 0 [] _ hX
    rw [h1]
    have hx0 : leadingEmpty X = 0 := by
      rw [← hk rfl]
      exact (leadingEmpty_places L X hsame).symm
    simp only [List.drop_zero, hx0, winRows, Nat.mul_zero, Nat.add_zero, if_true]
    exact numberedFrom_places L X hsame 0
  | false =>
    obtain ⟨h1, _, _⟩ := sheet_drop (styles := xst) (isNull := isNull) (bad := false) s hs 0 [] _ hX
    rw [h1]
    simp only [winRows, if_true]
    have hf : L.filter (· ≠ []) = L.dropWhile List.isEmpty := by
      have e : L.filter (· ≠ []) = (L.dropWhile List.isEmpty).filter (· ≠ []) := by
        conv_lhs => rw [← List.takeWhile_append_dropWhile (p := List.isEmpty) (l := L)]
        have e0 : (L.takeWhile List.isEmpty).filter (· ≠ []) = [] := by
          apply List.filter_eq_nil_iff.2
          intro is his
          have := List.all_eq_true.1 (List.all_takeWhile (p := List.isEmpty) (l := L)) is his
          simpa using this
        rw [List.filter_append, e0, List.nil_append]
      rw [e, List.filter_eq_self.2]
      intro is his
      simpa using hd rfl is his
    have hnum : numbered false L = numberedFrom true 0 (L.dropWhile List.isEmpty) := by
      simp only [numbered, numberedFrom, Bool.false_eq_true, if_false, if_true, hf]
    rw [hnum]
    exact numberedFrom_places _ _ (dropWhile_places L X hsame) 0

example : (exColumn [none, some ['1'], some ['2']]).Ok := by
  refine ⟨?_, ?_, ?_, ?_⟩ <;> simp [exColumn, exCell, Xml.plain, attrGet, tagC, tagRow, tagV, attR]

/-- Finding: a value, an empty row, a value.  With empty rows not counted the second value is in row 1 when the sheet
is stored as XLSB and in row 2 when it is stored as XLSX (`is_empty_row` is never set again there). -/
theorem C43_disagree :
    (iterXlsb [] (fun _ => false) (fun _ => []) { keepEmpty := false }
        [⟨0, []⟩, ⟨6, cellPayload 0 [0, 0, 0] 0 (.text ['1']) []⟩, ⟨0, []⟩, ⟨0, []⟩,
          ⟨6, cellPayload 0 [0, 0, 0] 0 (.text ['2']) []⟩] {}).map evCells =
      .ok [⟨0, 0, 0x18, .text ['1']⟩, ⟨1, 0, 0x18, .text ['2']⟩] ∧
    evCells (xlsxSheet [] (fun _ => false) { keepEmpty := false }
        ⟨(exColumn [some ['1'], none, some ['2']]).events, false⟩).1 =
      [⟨0, 0, 0x18, .text ['1']⟩, ⟨2, 0, 0x18, .text ['2']⟩] := by
  decide +kernel

/-! ## C45 -/

/-- Finding, C45 is false: a part that is not well-formed XML gives the consumer exactly the cells before the error, as
if the sheet ended there; the exception ends the parser thread only. -/
theorem C45_malformed_is_silent (styles : List (Str × Nat)) (isNull : Str → Bool) (o : SheetArgs) (evs : List Xml) :
    (xlsxSheet styles isNull o ⟨evs, true⟩).1 = (xlsxSheet styles isNull o ⟨evs, false⟩).1 ∧
    ((xlsxSheet styles isNull o ⟨evs, false⟩).2 = .finished →
      (xlsxSheet styles isNull o ⟨evs, true⟩).2 = .died .runtimeError) := by
  have key : ∀ (evs : List Xml) (st : XlsxState),
      (runXlsx styles isNull o true evs st).1 = (runXlsx styles isNull o false evs st).1 ∧
      ((runXlsx styles isNull o false evs st).2 = .finished →
        (runXlsx styles isNull o true evs st).2 = .died .runtimeError) := by
    intro evs
    induction evs with
    | nil => intro st; simp [runXlsx]
    | cons e es ih =>
      intro st
      cases e with
      | start t a =>
        simp only [runXlsx]
        cases xlsxStart styles o.skipRows st t a with
        | error e => simp
        | ok st' => exact ih st'
      | text s =>
        simp only [runXlsx]
        exact ⟨by rw [(ih _).1], (ih _).2⟩
      | close t =>
        simp only [runXlsx]
        split
        · simp
        · exact ⟨by rw [(ih _).1], (ih _).2⟩
  obtain ⟨h1, h2⟩ := key evs { take := o.takeRows + o.skipRows }
  exact ⟨by simp [xlsxSheet, h1], fun h => by simpa [xlsxSheet] using h2 h⟩

/-- Finding, C45 is false for handlers too: a cell without the (optional) reference raises KeyError in the parser
thread, and the consumer gets the two cells before it. -/
theorem C45_missing_reference_is_silent :
    xlsxSheet [] (fun _ => false) { keepEmpty := false }
      ⟨[.start tagRow []] ++ (exCell ['A', '1'] ['1']).events ++ (exCell ['B', '1'] ['2']).events ++
        [.start tagC [], .start tagV [], .text ['3'], .close tagV, .close tagC, .close tagRow] ++
        [.start tagRow []] ++ (exCell ['A', '2'] ['4']).events ++ [.close tagRow], false⟩ =
      ([.callback, .cell ⟨0, 0, 0x18, .text ['1']⟩, .cell ⟨0, 1, 0x18, .text ['2']⟩], .died .keyError) := by
  decide +kernel

/-- C45, partial: syntax errors in the workbook, shared string and style parts are raised.  Missing: the sheet part,
where they are not. -/
theorem C45_other_parts_partial (rels : List Relationship) (isNull : Str → Bool) (toInt : Str → Option Int)
    (evs : List Xml) :
    (∃ e, xlsxSheets rels ⟨evs, true⟩ = .error e) ∧ (∃ e, xlsxShared isNull ⟨evs, true⟩ = .error e) ∧
    (∃ e, xlsxStyles toInt ⟨evs, true⟩ = .error e) := by
  refine ⟨?_, ⟨_, by simp [xlsxShared]; rfl⟩, ?_⟩
  · unfold xlsxSheets
    cases sheetNames [] evs with
    | error e => exact ⟨e, rfl⟩
    | ok n => exact ⟨_, by simp; rfl⟩
  · unfold xlsxStyles
    cases stylesXml [] [] evs with
    | error e => exact ⟨e, rfl⟩
    | ok n => exact ⟨_, by simp; rfl⟩

end Rxls
