import Verif.Spec.BookParts
import Verif.Props.InCell

/-! # Property C127: only names, links, formats, texts and values of a workbook count -/

namespace Rxls

/-! ## XLSX -/

/-- The names from what a workbook part says. -/
def namesOf : List (Str × Str) → List (Option Str × Option Str) → Py (List (Str × Str))
  | d, [] => .ok d
  | d, (some name, some rid) :: l => namesOf (dictSet d rid name) l
  | _, _ :: _ => .error .keyError

theorem sheetNames_says (es : List Xml) : ∀ d, sheetNames d es = namesOf d (bookSheets es) := by
  induction es with
  | nil => intro d; rfl
  | cons e es ih =>
    intro d
    cases e with
    | start t a =>
      by_cases ht : t = tagSheet
      · simp only [sheetNames, if_pos ht, bookSheets, List.filterMap_cons, attrAt]
        cases h1 : attrGet a attName <;> cases h2 : attrGet a attRId <;> simp only [namesOf]
        exact ih _
      · simp only [sheetNames, if_neg ht, bookSheets, List.filterMap_cons]
        exact ih d
    | text s => exact ih d
    | close t => exact ih d

/-- The formats from what a styles part says. -/
def formatsOf : List (Str × Str) → List Str → List ((Option Str × Option Str) ⊕ Option Str) →
    Py (List (Str × Str) × List Str)
  | fms, xfs, [] => .ok (fms, xfs)
  | fms, xfs, .inl (some code, some fid) :: l => formatsOf (dictSet fms fid (beforeSemicolon code)) xfs l
  | fms, xfs, .inr (some fid) :: l => formatsOf fms (xfs ++ [fid]) l
  | _, _, _ :: _ => .error .keyError

theorem stylesXml_says (es : List Xml) : ∀ fms xfs, stylesXml fms xfs es = formatsOf fms xfs (bookFormats es) := by
  induction es with
  | nil => intro _ _; rfl
  | cons e es ih =>
    intro fms xfs
    cases e with
    | start t a =>
      by_cases ht : t = tagNumFmt
      · simp only [stylesXml, if_pos ht, bookFormats, List.filterMap_cons, attrAt]
        cases h1 : attrGet a attFormatCode <;> cases h2 : attrGet a attNumFmtId <;> simp only [formatsOf]
        exact ih _ _
      · by_cases hx : t = tagXf ∧ (attrGet a attXfId).isSome
        · simp only [stylesXml, if_neg ht, if_pos hx, bookFormats, List.filterMap_cons, attrAt]
          cases h2 : attrGet a attNumFmtId <;> simp only [formatsOf]
          exact ih _ _
        · simp only [stylesXml, if_neg ht, if_neg hx, bookFormats, List.filterMap_cons]
          exact ih _ _
    | text s => exact ih _ _
    | close t => exact ih _ _

theorem pyStrip_blank {s : Str} (h : s.all pySpace = true) : pyStrip s = [] := by
  have : s.dropWhile pySpace = [] := by
    induction s with
    | nil => rfl
    | cons c s ih =>
      rw [List.all_cons, Bool.and_eq_true] at h
      rw [List.dropWhile_cons_of_pos h.1, ih h.2]
  simp [pyStrip, this]

theorem sharedXml_says (isNull : Str → Bool) (es : List Xml) : ∀ n must,
    sharedXml isNull n must es = sharedXml isNull n must (bookTexts es) := by
  induction es with
  | nil => intro _ _; rfl
  | cons e es ih =>
    intro n must
    cases e with
    | start t a =>
      by_cases ht : t = tagSi
      · simp only [sharedXml, bookTexts, List.filterMap_cons, if_pos ht]
        exact ih _ _
      · simp only [sharedXml, bookTexts, List.filterMap_cons, if_neg ht, decide_eq_false ht, Bool.or_false]
        exact ih _ _
    | text s =>
      by_cases hs : s.all pySpace = true
      · simp only [sharedXml, bookTexts, List.filterMap_cons, if_pos hs, pyStrip_blank hs, ne_eq, not_true_eq_false,
          false_and, and_false, if_false]
        exact ih _ _
      · simp only [sharedXml, bookTexts, List.filterMap_cons, hs, if_false]
        rw [ih, ih]
        rfl
    | close t =>
      by_cases ht : t = tagSi
      · simp only [sharedXml, bookTexts, List.filterMap_cons, if_pos ht]
        rw [ih, ih]
        rfl
      · simp only [sharedXml, bookTexts, List.filterMap_cons, if_neg ht, ht, false_and, if_false]
        exact ih _ _

theorem worksheetFiles_says (rels : List Relationship) : worksheetFiles rels =
    (bookLinks rels).foldl (fun d p => dictSet d p.1 (xlPrefix ++ p.2)) [] := by
  unfold worksheetFiles bookLinks
  rw [List.foldl_map, List.foldl_filter]
  simp

theorem xlsxSheets_says {r r' : List Relationship} (h : bookLinks r = bookLinks r') {d d' : XmlDoc}
    (hd : d.SaysSame bookSheets d') : xlsxSheets r d = xlsxSheets r' d' := by
  unfold xlsxSheets
  rw [sheetNames_says, sheetNames_says, hd.1, hd.2, worksheetFiles_says, worksheetFiles_says, h]

theorem formats_says (toInt : Str → Option Int) {f g : XlsxFile}
    (h : Option.Rel (XmlDoc.SaysSame bookFormats) f.styles g.styles) : f.formats toInt = g.formats toInt := by
  unfold XlsxFile.formats
  generalize f.styles = a, g.styles = b at h
  cases h with
  | none => rfl
  | some hs =>
    simp only [openPart, xlsxStyles]
    rw [stylesXml_says, stylesXml_says, hs.1, hs.2]

theorem strings_says (isNull : Str → Bool) {f g : XlsxFile}
    (h : Option.Rel (XmlDoc.SaysSame bookTexts) f.shared g.shared) : f.strings isNull = g.strings isNull := by
  unfold XlsxFile.strings
  generalize f.shared = a, g.shared = b at h
  cases h with
  | none => rfl
  | some hs =>
    simp only [openPart, xlsxShared]
    rw [sharedXml_says, sharedXml_says isNull (XmlDoc.events _), hs.1, hs.2]

/-- C127.  XLSX files that say the same are read alike, whatever the arguments. -/
theorem C127_xlsx {A D : Type} (env : Env) (lib : Lib A D) (search : Str → Option (Str → Bool))
    (reMatch : Str → Str → Py Bool) (toInt : Str → Option Int) (a : FileArgs D) (p : Package) (hp : workbookXml ∈ p.names)
    (g : XlsxFile) (h : p.xlsx.SaysSame g) :
    readFile env lib search reMatch toInt a { p with xlsx := g } = readFile env lib search reMatch toInt a p := by
  rw [← C116_xlsx env lib search reMatch toInt a p hp g.parts h.values]
  have hf : fileKind p.names = .ok .xlsx := by simp [fileKind, hp]
  unfold readFile
  simp only [hf]
  unfold readXlsx
  rw [xlsxSheets_says h.links h.sheets]
  have e1 := formats_says toInt h.formats
  have e2 := strings_says (skipPredicate errorStringsXlsx a.nulls) h.texts
  simp only [XlsxFile.formats, XlsxFile.strings] at e1 e2 ⊢
  simp only [e1, e2]

/-- A workbook part with dates counted from 1904, a view, a hidden sheet and a defined name. -/
def exFullBook : List Xml :=
  [.start "workbook".toList [], .start "workbookPr".toList [("date1904".toList, ['1'])], .close "workbookPr".toList,
    .start "workbookView".toList [("activeTab".toList, ['3'])], .close "workbookView".toList, .text ['\n'],
    .start tagSheet [("state".toList, "hidden".toList), (attName, ['A']), ("sheetId".toList, ['7']), (attRId, ['r', '1'])],
    .close tagSheet, .start "definedName".toList [(attName, ['B'])], .text "A!$A$1".toList, .close "definedName".toList,
    .close "workbook".toList]

/-- Styles with a font, a fill, and alignment besides the formats. -/
def exFullStyles : List Xml :=
  [.start "font".toList [], .start "name".toList [("val".toList, "Arial".toList)], .close "name".toList, .close "font".toList,
    .start tagXf [(attNumFmtId, ['9'])], .close tagXf] ++ exTStyles ++ [.start "cellStyle".toList [(attXfId, ['0'])]]

/-- Shared strings with the properties of a run and line breaks between the items. -/
def exFullTexts (l : List Str) : List Xml :=
  .text ['\n'] :: l.flatMap fun s => [.start tagSi [("a".toList, ['1'])], .start ['r'] [], .start ['b'] [], .close ['b'],
    .start ['t'] [], .text s, .close ['t'], .close ['r'], .close tagSi, .text ['\n', ' ']]

/-- The file with all of this is read as the one without, whatever the arguments. -/
example {A D : Type} (env : Env) (lib : Lib A D) (search : Str → Option (Str → Bool)) (reMatch : Str → Str → Py Bool)
    (toInt : Str → Option Int) (a : FileArgs D) :
    readFile env lib search reMatch toInt a ⟨[workbookXml], { exXlsxFile with
        rels := ⟨['r', '9'], "styles".toList, ['s']⟩ :: exXlsxFile.rels
        workbook := ⟨exFullBook, false⟩, styles := some ⟨exFullStyles, false⟩
        shared := some ⟨exFullTexts [['x'], ['y', 'z', ' ']], false⟩ }, exFile⟩ =
      readFile env lib search reMatch toInt a ⟨[workbookXml], exXlsxFile, exFile⟩ :=
  C127_xlsx env lib search reMatch toInt a ⟨[workbookXml], exXlsxFile, exFile⟩ (by simp) _
    ⟨by decide +kernel, by unfold XmlDoc.SaysSame; decide +kernel, .some (by unfold XmlDoc.SaysSame; decide +kernel),
      .some (by unfold XmlDoc.SaysSame; decide +kernel), fun n => by
        show Option.Rel _ (exXlsxFile.parts n) (exXlsxFile.parts n)
        cases exXlsxFile.parts n with
        | none => exact .none
        | some d => exact .some ⟨rfl, rfl⟩⟩

/-! ## XLSB -/

theorem scan_ids {rs : List Record} {part : Bytes} (id : Nat) (h : writeAll rs [] = .ok part) :
    scanBiff (some [id]) part = rs.filter fun r => r.recId = id := by
  rw [C04_only_filter]
  have := C01_stream_roundtrip_append rs part [] h
  rw [List.append_nil] at this
  rw [this, show scanBiff none [] = [] from rfl, List.append_nil]
  apply List.filter_congr
  intro r _
  simp

/-- The link and the name of a sheet, from the bytes behind its number. -/
def sheetEntryOf (whole : Bool) (data : Bytes) : Py (Option Str × Option Str) :=
  if whole then
    match xstrLoad data with
    | .error e => .error e
    | .ok (rel, io) =>
      match xstrLoad io with
      | .error e => .error e
      | .ok (name, _) => .ok (rel, name)
  else .error .structError

theorem bundleLoadr_says (data : Bytes) : (bundleLoadr data).map (fun sh => (sh.strRelID, sh.strName)) =
    sheetEntryOf (decide (8 ≤ data.length)) (data.drop 8) := by
  by_cases h : 8 ≤ data.length
  · obtain ⟨b0, b1, b2, b3, b4, b5, b6, b7, rest, rfl⟩ : ∃ b0 b1 b2 b3 b4 b5 b6 b7 rest,
        data = b0 :: b1 :: b2 :: b3 :: b4 :: b5 :: b6 :: b7 :: rest := by
      match data, h with
      | b0 :: b1 :: b2 :: b3 :: b4 :: b5 :: b6 :: b7 :: rest, _ => exact ⟨_, _, _, _, _, _, _, _, _, rfl⟩
    simp only [sheetEntryOf, h, decide_true, if_true, bundleLoadr, unpackII, unpackI, List.take, List.drop, bind, Except.bind,
      List.length_cons, List.length_nil]
    cases h1 : xstrLoad rest with
    | error e => rfl
    | ok q =>
      obtain ⟨rel, io⟩ := q
      simp only [if_true]
      cases h2 : xstrLoad io <;> rfl
  · have : (data.take 8).length ≠ 8 := by
      rw [List.length_take]
      omega
    simp only [sheetEntryOf, h, decide_false, bundleLoadr, unpackII, if_neg this, bind, Except.bind]
    rfl

/-- The sheets from what a workbook part says. -/
def sheetsOf (links : List (Str × Str)) : List (Str × Str) → List (Bool × Bytes) → Py (List (Str × Str))
  | d, [] => .ok d
  | d, q :: l =>
    match sheetEntryOf q.1 q.2 with
    | .error e => .error e
    | .ok sh =>
      match links.find? fun x => x.1 = xstrValue sh.1 with
      | none => .error .stopIteration
      | some x => sheetsOf links (dictSet d (xstrValue sh.2) (xlPrefix ++ x.2)) l

theorem xlsbSheetsFrom_says (rels : List Relationship) (rs : List Record) : ∀ d, xlsbSheetsFrom rels d rs =
    sheetsOf (rels.map fun r => (r.id, r.target)) d
      (rs.map fun r => (decide (8 ≤ r.data.length), r.data.drop 8)) := by
  induction rs with
  | nil => intro d; rfl
  | cons r rs ih =>
    intro d
    simp only [xlsbSheetsFrom, List.map_cons, sheetsOf, ← bundleLoadr_says]
    cases bundleLoadr r.data with
    | error e => rfl
    | ok sh =>
      simp only [Except.map, List.find?_map]
      have : ((fun x : Str × Str => decide (x.1 = xstrValue sh.strRelID)) ∘ fun r : Relationship => (r.id, r.target)) =
          fun x => decide (x.id = xstrValue sh.strRelID) := rfl
      rw [this]
      cases rels.find? fun x => decide (x.id = xstrValue sh.strRelID) with
      | none => rfl
      | some x => exact ih _

theorem xlsbSheets_says {r r' : List Relationship}
    (h : r.map (fun r => (r.id, r.target)) = r'.map fun r => (r.id, r.target)) {b b' : Bytes}
    (hb : RecordsSaySame sheetSays b b') : xlsbSheets r b = xlsbSheets r' b' := by
  unfold xlsbSheets
  rw [xlsbSheetsFrom_says, xlsbSheetsFrom_says, h]
  rcases hb with rfl | ⟨rs, rs', h1, h2, he⟩
  · rfl
  · rw [scan_ids 412 h1, scan_ids 412 h2]
    exact congrArg (sheetsOf _ []) he

theorem xfsFrom_says (rs : List Record) : ∀ i,
    xfsFrom i (rs.map fun r => ⟨47, r.data.take 4⟩) = xfsFrom i rs := by
  induction rs with
  | nil => intro i; rfl
  | cons r rs ih =>
    intro i
    simp only [List.map_cons, xfsFrom, ih, pySlice_take r.data 4 0 2 (by omega), pySlice_take r.data 4 2 4 (by omega)]

theorem fmsOf_says (rs : List Record) : fmsOf (rs.map fun r => ⟨44, r.data⟩) = fmsOf rs := by
  induction rs with
  | nil => rfl
  | cons r rs ih => simp only [List.map_cons, fmsOf, ih]

theorem temporal_says {f g : XlsbFile} (h : Option.Rel (RecordsSaySame formatSays) f.styles g.styles) :
    f.temporal = g.temporal := by
  unfold XlsbFile.temporal
  generalize f.styles = a, g.styles = b at h
  cases h with
  | none => rfl
  | some hs =>
    simp only [openPart]
    rcases hs with rfl | ⟨rs, rs', h1, h2, he⟩
    · rfl
    · have e1 := congrArg (fun q : List Bytes × List Bytes => q.1.map (Record.mk 47)) he
      have e2 := congrArg (fun q : List Bytes × List Bytes => q.2.map (Record.mk 44)) he
      simp only [formatSays, List.map_map] at e1 e2
      simp only [xlsbStyles]
      rw [scan_ids 47 h1, scan_ids 47 h2, scan_ids 44 h1, scan_ids 44 h2]
      rw [← xfsFrom_says, ← xfsFrom_says (rs'.filter _), ← fmsOf_says, ← fmsOf_says (rs'.filter _)]
      have e1' := congrArg (xfsFrom 0) e1
      have e2' := congrArg fmsOf e2
      simp only [Function.comp_def] at e1' e2'
      rw [e1', e2']

/-- The text of a shared string from its bytes behind the flags. -/
def textOf (b : Bytes) : Py Str :=
  match unpackI (b.take 4) with
  | .error e => .error e
  | .ok n => decodeUtf16 ((b.drop 4).take (n * 2))

theorem sstText_says (r : Record) : sstText r.data = textOf ((r.data.drop 1).take (4 + 2 * r.textCount)) := by
  unfold sstText textOf
  have e1 : pySlice r.data 1 5 = (r.data.drop 1).take 4 := by
    rw [pySlice, List.drop_take]
  have e2 : ((r.data.drop 1).take (4 + 2 * r.textCount)).take 4 = (r.data.drop 1).take 4 := by
    rw [List.take_take]
    congr 1
    omega
  rw [e1, e2]
  have hc : ∀ n, unpackI ((r.data.drop 1).take 4) = .ok n → n = r.textCount := by
    intro n hn
    unfold Record.textCount
    generalize (r.data.drop 1).take 4 = l at hn
    unfold unpackI at hn
    split at hn
    · exact (Except.ok.inj hn).symm
    · simp at hn
  cases hu : unpackI ((r.data.drop 1).take 4) with
  | error e => rfl
  | ok n =>
    simp only
    rw [hc n hu]
    congr 1
    rw [pySlice, List.drop_take, List.drop_take, List.drop_drop, List.take_take]
    congr 1
    omega

/-- The shared strings from what their part says. -/
def sharedOf (isNull : Str → Bool) : Nat → List Bytes → Py (List (Option Str) × List Bytes)
  | _, [] => .ok ([], [])
  | i, b :: l =>
    match textOf b with
    | .error e => .error e
    | .ok y =>
      match (if isNull y then (packI i).map fun k => [k] else .ok []) with
      | .error e => .error e
      | .ok ks =>
        match sharedOf isNull (i + 1) l with
        | .error e => .error e
        | .ok (ys, ks') => .ok (some y :: ys, ks ++ ks')

theorem sharedFrom_says (isNull : Str → Bool) (rs : List Record) : ∀ i, sharedFrom isNull i rs =
    sharedOf isNull i (rs.map fun r => (r.data.drop 1).take (4 + 2 * r.textCount)) := by
  induction rs with
  | nil => intro i; rfl
  | cons r rs ih =>
    intro i
    simp only [sharedFrom, List.map_cons, sharedOf, sstText_says, ih]
    rfl

theorem stringsB_says (isNull : Str → Bool) {f g : XlsbFile}
    (h : Option.Rel (RecordsSaySame textSays) f.shared g.shared) : f.strings isNull = g.strings isNull := by
  unfold XlsbFile.strings
  generalize f.shared = a, g.shared = b at h
  cases h with
  | none => rfl
  | some hs =>
    simp only [openPart]
    rcases hs with rfl | ⟨rs, rs', h1, h2, he⟩
    · rfl
    · simp only [xlsbShared]
      rw [scan_ids 19 h1, scan_ids 19 h2, sharedFrom_says, sharedFrom_says]
      exact congrArg (sharedOf isNull 0) he

/-- C127.  XLSB files that say the same are read alike, whatever the arguments. -/
theorem C127_xlsb {A D : Type} (env : Env) (lib : Lib A D) (search : Str → Option (Str → Bool))
    (reMatch : Str → Str → Py Bool) (toInt : Str → Option Int) (a : FileArgs D) (p : Package)
    (hp : workbookXml ∉ p.names) (g : XlsbFile) (h : p.xlsb.SaysSame g) :
    readFile env lib search reMatch toInt a { p with xlsb := g } = readFile env lib search reMatch toInt a p := by
  rw [← C116_xlsb env lib search reMatch toInt a p hp g.parts h.values]
  unfold readFile
  simp only
  split
  · rfl
  · rename_i hk
    exact absurd hk (by simp only [fileKind, List.contains_eq_mem]; grind)
  unfold readXlsb
  rw [xlsbSheets_says h.links h.sheets]
  have e1 := temporal_says h.formats
  have e2 := stringsB_says (skipPredicate errorStringsXlsb a.nulls) h.texts
  simp only [XlsbFile.temporal, XlsbFile.strings] at e1 e2 ⊢
  simp only [e1, e2]

/-- A hidden sheet of number 7 behind another record, a font before the formats, and shared strings with flags and
runs. -/
def exHiddenRecs : List Record := [⟨153, [1, 0, 0, 0]⟩, (⟨1, 7, ['r', '1'], ['A']⟩ : SheetEntry).record]
@[inherit_doc exHiddenRecs] def exFontRecs : List Record :=
  [⟨43, [1, 2]⟩, (⟨0, 0, [5, 5]⟩ : Xf).record, (⟨0, 14, [1]⟩ : Xf).record]
@[inherit_doc exHiddenRecs] def exRunRecs : List Record := [sstItem 1 ['x'] [9, 9], sstItem 0 ['y', 'z'] [7]]

/-- A file with these parts is read as the one without, whatever the arguments. -/
example {A D : Type} (env : Env) (lib : Lib A D) (search : Str → Option (Str → Bool)) (reMatch : Str → Str → Py Bool)
    (toInt : Str → Option Int) (a : FileArgs D) :
    readFile env lib search reMatch toInt a ⟨[], exXlsxFile, { exFile with
        workbook := bytesOf exHiddenRecs, styles := some <| bytesOf exFontRecs, shared := some <| bytesOf exRunRecs }⟩ =
      readFile env lib search reMatch toInt a ⟨[], exXlsxFile, exFile⟩ :=
  C127_xlsb env lib search reMatch toInt a ⟨[], exXlsxFile, exFile⟩ (by simp) _
    ⟨rfl, .inr ⟨[(⟨0, 1, ['r', '1'], ['A']⟩ : SheetEntry).record], exHiddenRecs, by decide +kernel, by decide +kernel,
        by decide +kernel⟩,
      .some (.inr ⟨[(⟨0, 0, []⟩ : Xf).record, (⟨0, 14, []⟩ : Xf).record], exFontRecs, by decide +kernel, by decide +kernel,
        by decide +kernel⟩),
      .some (.inr ⟨[⟨159, []⟩, sstItem 0 ['x'] [], sstItem 0 ['y', 'z'] [], ⟨160, []⟩], exRunRecs, by decide +kernel,
        by decide +kernel, by decide +kernel⟩), fun n => by
        show Option.Rel _ (exFile.parts n) (exFile.parts n)
        cases exFile.parts n with
        | none => exact .none
        | some d => exact .some (.inl rfl)⟩

end Rxls
