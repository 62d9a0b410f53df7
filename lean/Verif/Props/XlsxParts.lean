import Verif.Lemmas.XlsxParts
import Verif.Lemmas.Xlsx
import Mathlib.Data.List.Nodup

/-!
# Properties of the other XLSX parts
-/

namespace Rxls

/-! ## Shared strings -/

/-- C46 (XLSX): a shared string part that is a sequence of `si` elements, whatever stands before, after and inside
them, gives exactly one entry per element, in order; entry `i` depends on element `i` alone: it is its first text that
is not blank and not null.  The null keys are the numbers of the entries that have none. -/
theorem C46_xlsx_aligned (isNull : Str → Bool) (pre post : List Xml) (items : List Si)
    (hpre : ∀ e ∈ pre, e.noSi) (hpost : ∀ e ∈ post, e.noSi) (hitems : ∀ x ∈ items, ∀ e ∈ x.body, e.noSi) :
    ∃ entries nulls, xlsxShared isNull ⟨pre ++ items.flatMap Si.events ++ post, false⟩ = .ok (entries, nulls) ∧
      entries = items.map (Si.entry isNull) ∧
      ∀ i, pyStr i ∈ nulls ↔ entries[i]? = some none := by
  refine ⟨_, ((items.zipIdx 0).filter fun p => (p.1.entry isNull).isNone).map fun p => pyStr p.2, ?_, rfl, ?_⟩
  · rw [xlsxShared, if_neg (by simp)]
    simp only
    rw [List.append_assoc, shared_outside isNull pre _ hpre, shared_items isNull items post hitems hpost]
  · intro i
    rw [List.mem_map]
    constructor
    · rintro ⟨⟨x, j⟩, hm, he⟩
      obtain ⟨h1, h2⟩ := List.mem_filter.1 hm
      have : j = i := pyStr_inj he
      subst this
      have hj := List.mem_zipIdx_iff_getElem?.1 h1
      simp only at hj h2
      rw [List.getElem?_map, hj]
      simpa using h2
    · intro h
      rw [List.getElem?_map] at h
      cases hx : items[i]? with
      | none => rw [hx] at h; simp at h
      | some x =>
        rw [hx] at h
        refine ⟨(x, i), List.mem_filter.2 ⟨List.mem_zipIdx_iff_getElem?.2 hx, ?_⟩, rfl⟩
        simpa using h

/-- An `si` element with the given `t` texts, as for rich text. -/
def exSi (ts : List Str) : Si := ⟨[], ts.flatMap fun s => [.start ['t'] [], .text s, .close ['t']]⟩

example : xlsxShared (fun s => s = ['-'])
      ⟨.start ['s', 's', 't'] [] :: .text ['\n'] ::
        ([exSi [['a']], exSi [], exSi [['-']], exSi [[' '], [' ', 'b', ' ']]].flatMap Si.events ++ [.close ['s', 's', 't']]),
        false⟩ =
      .ok ([some ['a'], none, none, some ['b']], [['1'], ['2']]) ∧
    (∀ x ∈ [exSi [['a']], exSi [], exSi [['-']], exSi [[' '], [' ', 'b', ' ']]], ∀ e ∈ x.body, e.noSi) := by
  refine ⟨by decide +kernel, ?_⟩
  intro x hx e he
  simp only [List.mem_cons, List.not_mem_nil, or_false] at hx
  rcases hx with rfl | rfl | rfl | rfl <;> simp [exSi] at he <;> rcases he with h | h | h <;> (try (rcases h with h | h | h | h)) <;>
    subst_vars <;> simp [Xml.noSi, tagSi]

/-- C47, the part that holds: a shared string with a single text event that has no surrounding whitespace, is not empty
and is not null is read as that text.
Missing: several runs (`C47_only_first_run`), surrounding whitespace (stripped), and texts expat delivers in pieces. -/
theorem C47_single_run_partial (isNull : Str → Bool) (x : Si) (s : Str) (hx : x.texts = [s]) (hs : pyStrip s = s)
    (h0 : s ≠ []) (hn : isNull s = false) : x.entry isNull = some s := by
  simp [Si.entry, hx, hs, h0, hn]

example : (exSi ["ab c".toList]).texts = ["ab c".toList] ∧ pyStrip "ab c".toList = "ab c".toList ∧
    (exSi ["ab c".toList]).entry (fun _ => false) = some "ab c".toList := by decide +kernel

/-- C47 fails: of the runs of a shared string only the first one that is not blank and not null is kept, whatever
follows it. -/
theorem C47_only_first_run (isNull : Str → Bool) (x : Si) (lead : List Str) (s : Str) (rest : List Str)
    (hx : x.texts = lead ++ s :: rest) (hl : ∀ t ∈ lead, pyStrip t = [] ∨ isNull (pyStrip t) = true)
    (h0 : pyStrip s ≠ []) (hn : isNull (pyStrip s) = false) : x.entry isNull = some (pyStrip s) := by
  rw [Si.entry, hx, List.map_append, List.find?_append]
  have : (lead.map pyStrip).find? (fun t => t ≠ [] && !isNull t) = none := by
    rw [List.find?_eq_none]
    intro t ht
    obtain ⟨u, hu, rfl⟩ := List.mem_map.1 ht
    rcases hl u hu with h | h <;> simp [h]
  rw [this]
  simp [h0, hn]

theorem pyStrip_sublist (s : Str) : List.Sublist (pyStrip s) s := by
  unfold pyStrip
  have h1 := List.dropWhile_sublist pySpace (l := (s.dropWhile pySpace).reverse)
  have h2 := List.reverse_sublist.2 h1
  rw [List.reverse_reverse] at h2
  exact h2.trans (List.dropWhile_sublist pySpace)

/-- C47, exactly: the whole text of a shared string is kept if and only if all of it stands in one run, without
whitespace around it, and it is not null. -/
theorem C47_exact (isNull : Str → Bool) (x : Si) :
    x.entry isNull = some x.texts.flatten ↔
      ∃ s, x.texts.filter (· ≠ []) = [s] ∧ pyStrip s = s ∧ isNull s = false := by
  have hflat : ∀ l : List Str, l.flatten = (l.filter (· ≠ [])).flatten := by
    intro l
    induction l with
    | nil => rfl
    | cons a l ih =>
      cases a with
      | nil => simpa using ih
      | cons c a => simp [ih]
  constructor
  · intro h
    unfold Si.entry at h
    obtain ⟨hp, as, bs, hl, -⟩ := List.find?_eq_some_iff_append.1 h
    have hp' : x.texts.flatten ≠ [] ∧ isNull x.texts.flatten = false := by simpa using hp
    obtain ⟨l1, l2, e1, rfl, e3⟩ := List.map_eq_append_iff.1 hl
    obtain ⟨s, l3, rfl, hs, rfl⟩ := List.map_eq_cons_iff.1 e3
    have hle := (pyStrip_sublist s).length_le
    have hlen := congrArg List.length (congrArg List.flatten e1)
    simp only [List.flatten_append, List.flatten_cons, List.length_append] at hlen
    rw [hs] at hle
    have z1 : l1.flatten = [] := List.length_eq_zero_iff.1 (by omega)
    have z3 : l3.flatten = [] := List.length_eq_zero_iff.1 (by omega)
    have hw : x.texts.flatten = s := by rw [e1]; simp [z1, z3]
    rw [hw] at hs hp'
    refine ⟨s, ?_, hs, hp'.2⟩
    rw [e1, List.filter_append, List.filter_cons]
    have f1 : l1.filter (· ≠ []) = [] := by
      rw [List.filter_eq_nil_iff]
      intro a ha
      simpa using List.flatten_eq_nil_iff.1 z1 a ha
    have f3 : l3.filter (· ≠ []) = [] := by
      rw [List.filter_eq_nil_iff]
      intro a ha
      simpa using List.flatten_eq_nil_iff.1 z3 a ha
    rw [f1, f3]
    simp [hp'.1]
  · rintro ⟨s, h, hs, hn⟩
    have h0 : s ≠ [] := by
      have : s ∈ x.texts.filter (· ≠ []) := by rw [h]; simp
      simpa using (List.mem_filter.1 this).2
    have hw : x.texts.flatten = s := by rw [hflat, h]; simp
    rw [hw]
    have key : ∀ l : List Str, l.filter (· ≠ []) = [s] →
        (l.map pyStrip).find? (fun t => t ≠ [] && !isNull t) = some s := by
      intro l
      induction l with
      | nil => intro h; cases h
      | cons a l ih =>
        intro h
        cases a with
        | nil =>
          have e0 : pyStrip [] = [] := rfl
          simp only [List.map_cons, e0, List.find?_cons]
          simpa using ih (by simpa using h)
        | cons c a =>
          have h' : (c :: a) = s := by simp at h; exact h.1
          rw [h']
          simp [hs, h0, hn]
    exact key _ h

example : (exSi ["".toList, "ab".toList]).entry (fun _ => false) = some (exSi ["".toList, "ab".toList]).texts.flatten ∧
    (exSi ["a".toList, "b".toList]).entry (fun _ => false) ≠ some (exSi ["a".toList, "b".toList]).texts.flatten := by
  decide +kernel

/-- C47 fails, end to end: the shared string "Hello, world" in two runs is read as "Hello,". -/
theorem C47_second_run_lost : ∃ doc, xlsxShared (fun _ => false) doc = .ok ([some "Hello,".toList], []) ∧
    doc = ⟨(exSi ["Hello, ".toList, "world".toList]).events, false⟩ :=
  ⟨_, by decide +kernel, rfl⟩

/-- C48 (XLSX, shared strings): a string stored as one text is null in the table exactly when it is blank or null. -/
theorem C48_xlsx_shared (isNull : Str → Bool) (x : Si) (s : Str) (hx : x.texts = [s]) :
    x.entry isNull = none ↔ pyStrip s = [] ∨ isNull (pyStrip s) = true := by
  simp only [Si.entry, hx, List.map_cons, List.map_nil, List.find?_cons, List.find?_nil]
  by_cases h0 : pyStrip s = []
  · simp [h0]
  · cases hn : isNull (pyStrip s) <;> simp [h0, hn]

/-- A sheet with one cell, holding shared string 5. -/
def exShared5 : XmlDoc :=
  ⟨[.start tagRow [], .start tagC [(attR, ['A', '1']), (attT, ['s'])], .start tagV [], .text ['5'], .close tagV,
    .close tagC, .close tagRow], false⟩

/-- C48 fails: for a shared cell the sheet reader applies the null test to the number of the string, not to the string;
a cell is dropped, whatever it shows, because it is string number 5 and "5" is a null value. -/
theorem C48_shared_number_tested :
    evCells (xlsxSheet [] (fun s => s = ['5']) ⟨0, 1, true, []⟩ exShared5).1 = [] ∧
    evCells (xlsxSheet [] (fun s => s = ['6']) ⟨0, 1, true, []⟩ exShared5).1 ≠ [] := by decide +kernel

/-! ## Styles -/

/-- C50: for every style sheet with distinct custom format ids and integer format ids, looking up cell format `i` finds
the class of its number format: numeric if the custom code of that id, or the id itself, is numeric; otherwise temporal
if the code or the id is temporal; otherwise nothing. -/
theorem C50_classification (toInt : Str → Option Int) (es : List Xml) (h : StylesComplete es)
    (hn : ((numFmts es).map (·.1)).Nodup) (hi : ∀ y ∈ cellFmts es, (toInt y).isSome) :
    ∃ l, xlsxStyles toInt ⟨es, false⟩ = .ok l ∧
      ∀ i y n, (cellFmts es)[i]? = some y → toInt y = some n →
      (l.find? fun p => p.1 = pyStr i).map (·.2) = (classOf (numFmts es) y n).tag :=
  xlsxStyles_class toInt es h hn hi

/-- C50, in the cell: a cell whose style attribute is `i`, and which is not a shared string, gets the type of the class
of cell format `i`; a cell of another class is text. -/
theorem C50_cell_type (toInt : Str → Option Int) (es : List Xml) (h : StylesComplete es)
    (hn : ((numFmts es).map (·.1)).Nodup) (hi : ∀ y ∈ cellFmts es, (toInt y).isSome) (attrs : List (Str × Str))
    (i : Nat) (y : Str) (n : Int) (ht : attrGet attrs attT ≠ some ['s'])
    (hs : attrGet attrs attS = some (pyStr i) ∨ (i = 0 ∧ attrGet attrs attS = none))
    (hy : (cellFmts es)[i]? = some y) (hyn : toInt y = some n) :
    ∃ l, xlsxStyles toInt ⟨es, false⟩ = .ok l ∧
      xlsxType l attrs = match classOf (numFmts es) y n with
        | .numeric => 0x20
        | .temporal => 0x24
        | .other => TYPE_STRING ||| REPR_PREPARED := by
  obtain ⟨l, h1, h2⟩ := xlsxStyles_class toInt es h hn hi
  refine ⟨l, h1, ?_⟩
  have h2 := h2 i y n hy hyn
  have hk : (attrGet attrs attS).getD ['0'] = pyStr i := by
    rcases hs with hs | ⟨rfl, hs⟩
    · rw [hs]; rfl
    · rw [hs]; decide
  rw [xlsxType, if_neg ht, hk]
  cases hf : l.find? fun p => p.1 = pyStr i with
  | none =>
    rw [hf] at h2
    cases hc : classOf (numFmts es) y n <;> rw [hc] at h2 <;> simp [StyleClass.tag] at h2 ⊢
  | some p =>
    rw [hf] at h2
    cases hc : classOf (numFmts es) y n <;> rw [hc] at h2 <;> simp [StyleClass.tag] at h2 ⊢ <;> simp [h2]

/-- A style sheet with one custom format 164 and the cell formats General, built-in date, custom. -/
def exStyleSheet (code : Str) : List Xml :=
  [.start tagNumFmt [(attNumFmtId, "164".toList), (attFormatCode, code)], .close tagNumFmt,
   .start tagXf [(attNumFmtId, "22".toList)], .close tagXf,
   .start tagXf [(attNumFmtId, "0".toList), (attXfId, ['0'])], .close tagXf,
   .start tagXf [(attNumFmtId, "14".toList), (attXfId, ['0'])], .close tagXf,
   .start tagXf [(attNumFmtId, "164".toList), (attXfId, ['0'])], .close tagXf]

/-- Decimal digits. -/
def exInt (s : Str) : Option Int := some (Nat.ofDigitChars 10 s 0)

example : xlsxStyles exInt ⟨exStyleSheet "yyyy-mm".toList, false⟩ = .ok [(['2'], 0x24), (['1'], 0x24)] ∧
    cellFmts (exStyleSheet "yyyy-mm".toList) = ["0".toList, "14".toList, "164".toList] ∧
    numFmts (exStyleSheet "yyyy-mm".toList) = [("164".toList, "yyyy-mm".toList)] ∧
    StylesComplete (exStyleSheet "yyyy-mm".toList) := by
  refine ⟨by decide +kernel, by decide +kernel, by decide +kernel, ?_⟩
  intro t a hm
  simp only [exStyleSheet, List.mem_cons, List.not_mem_nil, or_false, Xml.start.injEq, reduceCtorEq, false_or] at hm
  rcases hm with ⟨h1, h2⟩ | ⟨h1, h2⟩ | ⟨h1, h2⟩ | ⟨h1, h2⟩ | ⟨h1, h2⟩ <;> rw [h1, h2] <;> decide +kernel

/-- C50, what the numeric test does: times with hundredths count as numbers, and numbers with one decimal place, a
thousands separator or a plain `General` cell have no class and are delivered as text. -/
theorem C50_numeric_test :
    classOf [("164".toList, "mm:ss.00".toList)] "164".toList 164 = .numeric ∧
    classOf [("164".toList, "0.0".toList)] "164".toList 164 = .other ∧
    classOf [] "0".toList 0 = .other := by
  have h1 : (fmtNumeric (beforeSemicolon "mm:ss.00".toList)) = true := by decide +kernel
  have h2 : (fmtNumeric (beforeSemicolon "0.0".toList)) = false := by decide +kernel
  have h3 : (fmtTemporal (beforeSemicolon "0.0".toList)) = false := by decide +kernel
  have n0 : ¬ ∃ m ∈ numericStyles, (m : Int) = 0 := by decide
  have n1 : ¬ ∃ m ∈ numericStyles, (m : Int) = 164 := by decide
  have t0 : ¬ ∃ m ∈ temporalStyles, (m : Int) = 0 := by decide
  have t1 : ¬ ∃ m ∈ temporalStyles, (m : Int) = 164 := by decide
  refine ⟨?_, ?_, ?_⟩
  · rw [classOf, if_pos]
    exact Or.inl ⟨_, List.mem_singleton.2 rfl, rfl, h1⟩
  · rw [classOf, if_neg, if_neg]
    · rintro (⟨c, hc, -, h⟩ | h)
      · rw [List.mem_singleton.1 hc, h3] at h; cases h
      · exact t1 h
    · rintro (⟨c, hc, -, h⟩ | h)
      · rw [List.mem_singleton.1 hc, h2] at h; cases h
      · exact n1 h
  · rw [classOf, if_neg, if_neg]
    · rintro (⟨c, hc, -⟩ | h)
      · cases hc
      · exact t0 h
    · rintro (⟨c, hc, -⟩ | h)
      · cases hc
      · exact n0 h

/-! ## Sheets -/

/-- C52 (XLSX): the sheets are the `sheet` elements of the workbook part in order, each with the file its
relationship points to, when ids and names are unique and every relationship is there and is a worksheet. -/
theorem C52_xlsx_sheets (rels : List Relationship) (es : List Xml) (h : SheetsComplete es) (tgt : Str → Str)
    (hr : (rels.map (·.id)).Nodup) (hid : ((sheetEntries es).map (·.1)).Nodup)
    (hname : ((sheetEntries es).map (·.2)).Nodup)
    (ht : ∀ e ∈ sheetEntries es, ⟨e.1, worksheetType, tgt e.1⟩ ∈ rels) :
    xlsxSheets rels ⟨es, false⟩ = .ok ((sheetEntries es).map fun e => (e.2, xlPrefix ++ tgt e.1)) := by
  have h0 := sheetNames_events es h [] (by simpa using hid)
  rw [List.nil_append] at h0
  rw [xlsxSheets]
  simp only [h0, Bool.false_eq_true, if_false]
  have := joinSheets_entries (worksheetFiles rels) (fun r => xlPrefix ++ tgt r) (sheetEntries es) []
    (by
      intro e he
      rw [worksheetFiles_eq rels hr]
      have hm := ht e he
      cases hf : ((rels.filter fun r => r.type = worksheetType).map fun r => (r.id, xlPrefix ++ r.target)).find?
          fun p => p.1 = e.1 with
      | none =>
        rw [List.find?_eq_none] at hf
        exfalso
        refine hf (e.1, xlPrefix ++ tgt e.1) (List.mem_map.2 ⟨_, List.mem_filter.2 ⟨hm, by simp⟩, rfl⟩) (by simp)
      | some p =>
        obtain ⟨q, hq, rfl⟩ := List.mem_map.1 (List.mem_of_find?_eq_some hf)
        have hq := (List.mem_filter.1 hq).1
        have hid := List.find?_some hf
        simp only [decide_eq_true_eq] at hid
        have : q = ⟨e.1, worksheetType, tgt e.1⟩ := List.inj_on_of_nodup_map hr hq hm hid
        rw [this]
        rfl)
    (by simpa using hname)
  simpa using this

/-- A workbook part with two sheets. -/
def exBook : List Xml :=
  [.start ['w', 'b'] [], .start tagSheet [(attName, ['B']), (attRId, ['2'])], .close tagSheet,
   .start tagSheet [(attName, ['A']), (attRId, ['1'])], .close tagSheet, .close ['w', 'b']]

example : xlsxSheets [⟨['1'], worksheetType, ['x']⟩, ⟨['3'], ['s'], ['z']⟩, ⟨['2'], worksheetType, ['y']⟩] ⟨exBook, false⟩ =
      .ok [(['B'], "xl/y".toList), (['A'], "xl/x".toList)] ∧
    sheetEntries exBook = [(['2'], ['B']), (['1'], ['A'])] := by decide +kernel

/-- C52 fails for workbooks with a sheet that is not a worksheet, such as a chart sheet: listing the sheets raises
KeyError, so no sheet of the workbook can be read. -/
theorem C52_chart_sheet (rels : List Relationship) (es : List Xml) (h : SheetsComplete es)
    (hr : (rels.map (·.id)).Nodup) (hid : ((sheetEntries es).map (·.1)).Nodup)
    (e : Str × Str) (he : e ∈ sheetEntries es) (ht : ∀ r ∈ rels, r.id = e.1 → r.type ≠ worksheetType) :
    xlsxSheets rels ⟨es, false⟩ = .error .keyError := by
  have h0 := sheetNames_events es h [] (by simpa using hid)
  rw [List.nil_append] at h0
  rw [xlsxSheets]
  simp only [h0, Bool.false_eq_true, if_false]
  have hf : (worksheetFiles rels).find? (fun p => p.1 = e.1) = none := by
    rw [worksheetFiles_eq rels hr, List.find?_eq_none]
    intro p hp
    obtain ⟨q, hq, rfl⟩ := List.mem_map.1 hp
    obtain ⟨hq, htype⟩ := List.mem_filter.1 hq
    simp only [decide_eq_true_eq] at htype ⊢
    exact fun hid => ht q hq hid htype
  have key : ∀ (l d : List (Str × Str)), e ∈ l → joinSheets (worksheetFiles rels) d l = .error .keyError := by
    intro l
    induction l with
    | nil => intro d h; cases h
    | cons a l ih =>
      intro d hm
      obtain ⟨rid, name⟩ := a
      rw [joinSheets]
      rcases List.mem_cons.1 hm with rfl | hm
      · simp only at hf
        simp only [hf]
      · cases hx : (worksheetFiles rels).find? fun p => p.1 = rid with
        | none => rfl
        | some p => exact ih _ hm
  exact key _ _ he

example : xlsxSheets [⟨['1'], worksheetType, ['x']⟩, ⟨['2'], "chartsheet".toList, ['y']⟩] ⟨exBook, false⟩ =
    .error .keyError := by decide +kernel

end Rxls
