import Verif.Model.ReadFile
import Verif.Model.BiffEnum

/-!
# C79: the names the readers look for are those of the file formats

All names are spelled out here (ECMA-376 part 1: 18.2, 18.3, 18.4, 18.8; MS-XLSB 2.3), none is taken from the model.
-/

namespace Rxls

/-- C79: the reader is chosen by the workbook part; XLSX goes first. -/
theorem C79_workbook_part (names : List Str) :
    fileKind names =
      if "xl/workbook.xml".toList ∈ names then .ok .xlsx
      else if "xl/workbook.bin".toList ∈ names then .ok .xlsb
      else .error .assertionError := by
  have h1 : workbookXml = "xl/workbook.xml".toList := by decide
  have h2 : workbookBin = "xl/workbook.bin".toList := by decide
  unfold fileKind
  rw [h1, h2]
  simp only [List.contains_iff_mem]

example : fileKind ["[Content_Types].xml".toList, "xl/workbook.bin".toList] = .ok .xlsb := by decide +kernel

/-- C79: the list of sheets in `xl/workbook.xml`. -/
theorem C79_sheet_element (rid name sheetId target : Str) :
    xlsxSheets [⟨rid, "worksheet".toList, target⟩]
      ⟨[.start "workbook".toList [], .start "sheets".toList [],
        .start "sheet".toList [("name".toList, name), ("sheetId".toList, sheetId), ("r:id".toList, rid)],
        .close "sheet".toList, .close "sheets".toList, .close "workbook".toList], false⟩ =
      .ok [(name, "xl/".toList ++ target)] := by
  have e1 : "sheet".toList = tagSheet := by decide
  have e2 : "name".toList = attName := by decide
  have e3 : "r:id".toList = attRId := by decide
  have e4 : "worksheet".toList = worksheetType := by decide
  have e5 : "xl/".toList = xlPrefix := by decide
  have n1 : "workbook".toList ≠ tagSheet := by decide
  have n2 : "sheets".toList ≠ tagSheet := by decide
  have n3 : "sheetId".toList ≠ attRId := by decide
  have n4 : attName ≠ attRId := by decide
  rw [e1, e2, e3, e4, e5]
  generalize "workbook".toList = w at *
  generalize "sheets".toList = w' at *
  generalize "sheetId".toList = w'' at *
  clear e1 e2 e3 e4 e5
  simp [xlsxSheets, sheetNames, n1, n2, n3, n4, attrAt, attrGet, worksheetFiles, joinSheets, dictSet]

/-- C79: the shared strings in `xl/sharedStrings.xml`. -/
theorem C79_string_items (isNull : Str → Bool) (ss : List Str)
    (h : ∀ s ∈ ss, pyStrip s = s ∧ s ≠ [] ∧ isNull s = false) :
    xlsxShared isNull
      ⟨.start "sst".toList [] :: (ss.flatMap fun s => [.start "si".toList [], .start "t".toList [], .text s,
        .close "t".toList, .close "si".toList]) ++ [.close "sst".toList], false⟩ = .ok (ss.map some, []) := by
  have e1 : "si".toList = tagSi := by decide
  have n1 : "sst".toList ≠ tagSi := by decide
  have n2 : "t".toList ≠ tagSi := by decide
  have key : ∀ n, sharedXml isNull n false ((ss.flatMap fun s => [.start "si".toList [], .start "t".toList [], .text s,
        .close "t".toList, .close "si".toList]) ++ [.close "sst".toList]) = (ss.map some, []) := by
    rw [e1]
    generalize "sst".toList = w at *
    generalize "t".toList = w' at *
    clear e1
    induction ss with
    | nil => intro n; simp [sharedXml, n1]
    | cons s ss ih =>
      intro n
      obtain ⟨h1, h2, h3⟩ := h s (.head _)
      have ih := ih (fun s hs => h s (.tail _ hs)) (n + 1)
      simp [sharedXml, n2, h1, h2, h3, ih]
  have := key 0
  simp only [xlsxShared, List.cons_append, sharedXml, n1, decide_false, Bool.or_false, Bool.false_eq_true, if_false, this]

example : (∀ s ∈ [['a'], ['b', 'c']], pyStrip s = s ∧ s ≠ [] ∧ (fun _ => false : Str → Bool) s = false) := by
  decide +kernel

/-- C79: cell formats in `xl/styles.xml`: a custom format and a cell format that uses it. -/
theorem C79_format_elements (toInt : Str → Option Int) (fid code : Str) (i : Int) (hi : toInt fid = some i) (h164 : 164 ≤ i) :
    xlsxStyles toInt
      ⟨[.start "styleSheet".toList [], .start "numFmts".toList [],
        .start "numFmt".toList [("numFmtId".toList, fid), ("formatCode".toList, code)], .close "numFmt".toList,
        .close "numFmts".toList, .start "cellXfs".toList [],
        .start "xf".toList [("numFmtId".toList, fid), ("xfId".toList, ['0'])], .close "xf".toList,
        .close "cellXfs".toList, .close "styleSheet".toList], false⟩ =
      .ok (if beforeSemicolon code = "0".toList ∨ hasSub ".00".toList (beforeSemicolon code) = true then [(['0'], 0x20)]
        else if fmtTemporal (beforeSemicolon code) = true then [(['0'], 0x24)] else []) := by
  have e1 : "numFmt".toList = tagNumFmt := by decide
  have e2 : "numFmtId".toList = attNumFmtId := by decide
  have e3 : "formatCode".toList = attFormatCode := by decide
  have e4 : "xf".toList = tagXf := by decide
  have e5 : "xfId".toList = attXfId := by decide
  have e6 : "0".toList = ['0'] := by decide
  have e7 : ".00".toList = dotZeros := by decide
  have n1 : "styleSheet".toList ≠ tagNumFmt ∧ "styleSheet".toList ≠ tagXf := by decide
  have n2 : "numFmts".toList ≠ tagNumFmt ∧ "numFmts".toList ≠ tagXf := by decide
  have n3 : "cellXfs".toList ≠ tagNumFmt ∧ "cellXfs".toList ≠ tagXf := by decide
  have n4 : tagXf ≠ tagNumFmt := by decide
  have n5 : attNumFmtId ≠ attFormatCode := by decide
  have n6 : attNumFmtId ≠ attXfId := by decide
  have b1 : builtinFmt toInt numericStyles fid = false := by
    simp only [builtinFmt, hi, numericStyles, List.any_cons, List.any_nil, Bool.or_false]
    simp
    omega
  have b2 : builtinFmt toInt temporalStyles fid = false := by
    simp only [builtinFmt, hi, temporalStyles, List.any_cons, List.any_nil, Bool.or_false]
    simp
    omega
  have p0 : pyStr 0 = ['0'] := by decide
  rw [e1, e2, e3, e4, e5, e6, e7]
  simp only [xlsxStyles, stylesXml, n1.1, n1.2, n2.1, n2.2, n3.1, n3.2, n4, attrAt, attrGet]
  simp [n5, n6, dictSet, hi, xfsWith, b1, b2, fmtNumeric, p0, TYPE_NUMERIC, REPR_TEMPORAL]
  by_cases h1 : beforeSemicolon code = ['0'] <;> by_cases h2 : hasSub dotZeros (beforeSemicolon code) = true <;>
    by_cases h3 : fmtTemporal (beforeSemicolon code) = true <;> simp [h1, h2, h3]

/-- C79: a cell in a sheet. -/
theorem C79_cell_elements (styles : List (Str × Nat)) (isNull : Str → Bool) (ref style txt : Str) (shared : Bool)
    (h : pyStrip txt = txt ∧ txt ≠ [] ∧ isNull txt = false) :
    xlsxSheet styles isNull {}
      ⟨[.start "worksheet".toList [], .start "sheetData".toList [], .start "row".toList [],
        .start "c".toList (("r".toList, ref) :: ("s".toList, style) :: if shared then [("t".toList, "s".toList)] else []),
        .start "v".toList [], .text txt, .close "v".toList, .close "c".toList, .close "row".toList,
        .close "sheetData".toList, .close "worksheet".toList], false⟩ =
      ([.callback, .cell ⟨0, colIdx (ref.flatMap String.utf8EncodeChar),
          if shared then 0x11 else
            match styles.find? fun p => p.1 = style with
            | some p => if p.2 ≠ 0 then p.2 else 0x18
            | none => 0x18, .text txt⟩, .callback], .finished) := by
  have e1 : "row".toList = tagRow := by decide
  have e2 : "c".toList = tagC := by decide
  have e3 : "v".toList = tagV := by decide
  have e4 : "r".toList = attR := by decide
  have e5 : "s".toList = attS := by decide
  have e6 : "t".toList = attT := by decide
  have e7 : attS = ['s'] := by decide
  have n1 : "worksheet".toList ≠ tagC ∧ "worksheet".toList ≠ tagRow := by decide
  have n2 : "sheetData".toList ≠ tagC ∧ "sheetData".toList ≠ tagRow := by decide
  have n3 : tagRow ≠ tagC := by decide
  have n4 : tagV ≠ tagC ∧ tagV ≠ tagRow := by decide
  have n5 : tagC ≠ tagRow := by decide
  have n6 : attS ≠ attT ∧ attR ≠ attT ∧ attR ≠ attS := by decide
  rw [e1, e2, e3, e4, e5, e6]
  clear e1 e2 e3 e4 e5 e6
  generalize "worksheet".toList = w at *
  generalize "sheetData".toList = w' at *
  obtain ⟨n6, n7, n8⟩ := n6
  have g : ∀ l, attrGet ((attR, ref) :: l) attR = some ref := by intro l; simp [attrGet]
  have g' : ∀ l, attrGet ((attR, ref) :: (attS, style) :: l) attS = some style := by intro l; simp [attrGet, n8]
  cases shared
  · have g2 : attrGet [(attR, ref), (attS, style)] attT = none := by simp [attrGet, n6, n7]
    simp [xlsxSheet, runXlsx, xlsxStart, xlsxText, xlsxEnd, n1.1, n1.2, n2.1, n2.2, n3, n4.1, n4.2, n5, attrAt, g, g', g2,
      xlsxType, h.1, h.2.1, h.2.2, TYPE_STRING, REPR_SHARED, REPR_PREPARED]
    cases List.find? (fun p => decide (p.1 = style)) styles <;> rfl
  · have g2 : attrGet [(attR, ref), (attS, style), (attT, attS)] attT = some ['s'] := by rw [← e7]; simp [attrGet, n6, n7]
    simp [xlsxSheet, runXlsx, xlsxStart, xlsxText, xlsxEnd, n1.1, n1.2, n2.1, n2.2, n3, n4.1, n4.2, n5, attrAt, g, g', g2,
      xlsxType, h.1, h.2.1, h.2.2, TYPE_STRING, REPR_SHARED, REPR_PREPARED]

example : (fun _ => false : Str → Bool) ['7'] = false ∧ pyStrip ['7'] = ['7'] ∧
    xlsxSheet [] (fun _ => false) {} ⟨[.start "row".toList [], .start "c".toList [("r".toList, "B1".toList)],
      .start "v".toList [], .text ['7'], .close "v".toList, .close "c".toList, .close "row".toList], false⟩ =
      ([.callback, .cell ⟨0, 1, 0x18, .text ['7']⟩, .callback], .finished) := by decide +kernel

/-- C79: the record numbers of the XLSB reader are those of the named records. -/
theorem C79_record_numbers :
    (["BrtRowHdr", "BrtCellRk", "BrtCellBool", "BrtCellReal", "BrtCellSt", "BrtCellIsst", "BrtFmlaString", "BrtFmlaNum",
      "BrtFmlaBool", "BrtEndSheetData"].mapM biffEnumGet = .ok sheetIds) ∧
    biffEnumGet "BrtBundleSh" = .ok 412 ∧ biffEnumGet "BrtSSTItem" = .ok 19 ∧ biffEnumGet "BrtXF" = .ok 47 ∧
    biffEnumGet "BrtFmt" = .ok 44 := by decide +kernel

/-- C79: the words for `conflict_resolve`: `(to temporal, to numeric)`; any other word is the same as `no`. -/
theorem C79_conflict_words (w : Str) (f : FormatsArg) (prec : Nat) :
    concatOpts w f prec = ⟨w = "temporal".toList ∨ w = "all".toList, w = "numeric".toList ∨ w = "all".toList, f.toList, prec⟩ := by
  have e1 : "temporal".toList = strTemporal := by decide
  have e2 : "all".toList = strAll := by decide
  have e3 : "numeric".toList = strNumeric := by decide
  rw [e1, e2, e3]
  simp [concatOpts, Bool.decide_or]

example : (concatOpts "no".toList .none 6).confDt = false ∧ (concatOpts "all".toList .none 6).confDt = true := by
  decide +kernel

/-- C79: names made up for columns: nothing found in the header, the parts of a name in several rows, no header. -/
theorem C79_made_up_names (i : Nat) :
    orUnnamed none = "Unnamed".toList ∧ orUnnamed (some []) = "Unnamed".toList ∧
      joinParts [some ['a'], none, some ['b']] = "a, b".toList ∧
      joinParts [none, some []] = "Unnamed".toList ∧ unnamedDot ++ pyStr i = "Unnamed. ".toList ++ pyStr i := by
  refine ⟨by decide, by decide, by decide, by decide, ?_⟩
  rw [show "Unnamed. ".toList = unnamedDot by decide]

end Rxls
