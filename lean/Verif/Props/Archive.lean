import Verif.Props.XmlText
import Verif.Props.ReadFile

/-! # Property C85: from the entries of the archive to the table -/

namespace Rxls

theorem isXml_parse {pieces : Str → List Str} {b : Bytes} {es : List Xml} (h : IsXml pieces b es) :
    parsePart pieces b = ⟨es, false⟩ := by
  obtain ⟨x, s, mark, h1, h2, rfl, rfl⟩ := h
  exact C84_bytes pieces x h1 s h2 mark

theorem has_part {z : Archive} {name : Str} {b : Bytes} (h : z.Has name b) : z.part name = some b := by
  unfold Archive.part
  rw [show (z.filter fun e => e.1 = name) = [(name, b)] from h]
  rfl

theorem has_mem {z : Archive} {name : Str} {b : Bytes} (h : z.Has name b) : name ∈ z.map (·.1) := by
  have : (name, b) ∈ z.filter fun e => e.1 = name := by rw [show (z.filter fun e => e.1 = name) = _ from h]; simp
  exact List.mem_map.mpr ⟨_, (List.mem_filter.mp this).1, rfl⟩

theorem relsHandler_eq (es : List Xml) (h : RelsComplete es) :
    ∀ ret, relsHandler ret es = .ok (ret ++ relationships es) := by
  induction es with
  | nil => intro ret; simp [relsHandler, relationships]
  | cons e es ih =>
    intro ret
    have h' : RelsComplete es := fun t a hm => h t a (List.mem_cons_of_mem _ hm)
    have h0 := fun t a (he : e = Xml.start t a) => h t a (he ▸ List.mem_cons_self)
    cases e with
    | start t a =>
      unfold relsHandler
      split
      · rename_i ht
        obtain ⟨h1, h2, h3⟩ := h0 t a rfl ht
        obtain ⟨i, e1⟩ := Option.isSome_iff_exists.mp h1
        obtain ⟨ty, e2⟩ := Option.isSome_iff_exists.mp h2
        obtain ⟨g, e3⟩ := Option.isSome_iff_exists.mp h3
        simp only [attrAt, e1, e2, e3]
        rw [ih h']
        simp [relationships, ht, e1, e2, e3]
      · rename_i ht
        rw [ih h']
        simp [relationships, ht]
    | text s =>
      rw [relsHandler, ih h']
      · simp [relationships]
      · simp
    | close t =>
      rw [relsHandler, ih h']
      · simp [relationships]
      · simp

theorem scanRels_eq (es : List Xml) (h : RelsComplete es) : scanRels ⟨es, false⟩ = .ok (relationships es) := by
  unfold scanRels
  rw [relsHandler_eq es h]
  rfl

/-- C85.  An XLSX archive with the parts of a file is read as that file is (so everything said about `readXlsx` and
`readFile` holds for archives). -/
theorem C85_xlsx_parts {A D : Type} (env : Env) (lib : Lib A D) (search : Str → Option (Str → Bool))
    (reMatch : Str → Str → Py Bool) (toInt : Str → Option Int) (pieces : Str → List Str) (a : FileArgs D) (z : Archive)
    (f : XlsxFile) (h : z.HasXlsx pieces f)
    (hs : f.shared = none → z.part xlsxSharedName = none) (ht : f.styles = none → z.part xlsxStylesName = none)
    (hp : ∀ n, f.parts n = none → z.part n = none) :
    readArchive env lib search reMatch toInt pieces a z =
      readXlsx env lib search reMatch toInt (skipPredicate errorStringsXlsx a.nulls)
        (concatOpts a.conflict a.formats a.precision) a.iter a.table f := by
  obtain ⟨es, ⟨rb, r1, r2⟩, r3, r4⟩ := h.rels
  obtain ⟨⟨wb, w1, w2⟩, w3⟩ := h.workbook
  have hk : fileKind (z.map (·.1)) = .ok .xlsx := by simp [fileKind, has_mem w1]
  unfold readArchive
  rw [hk]
  simp only [Kind.relsName, has_part r1, openPart, isXml_parse r2, scanRels_eq es r3]
  unfold readFile
  rw [show (z.package pieces (relationships es)).names = z.map (·.1) from rfl, hk]
  simp only
  congr 1
  have one : ∀ (n : Str) (o : Option XmlDoc), (∀ d, o = some d → z.HasXml pieces n d.events ∧ d.bad = false) →
      (o = none → z.part n = none) → (z.part n).map (parsePart pieces) = o := by
    intro n o h1 h2
    cases o with
    | none => rw [h2 rfl]; rfl
    | some d =>
      obtain ⟨⟨b, b1, b2⟩, b3⟩ := h1 d rfl
      rw [has_part b1]
      simp only [Option.map_some, isXml_parse b2]
      rw [← b3]
  obtain ⟨frels, fw, fsh, fst, fp⟩ := f
  simp only [Archive.package]
  congr 1
  · exact r4.symm
  · rw [has_part w1, Option.getD_some, isXml_parse w2]
    simp only at w3
    rw [← w3]
  · exact one _ _ h.shared hs
  · exact one _ _ h.styles ht
  · funext n
    exact one n (fp n) (h.parts n) (hp n)

/-- C85.  From the entries of an XLSX archive to the table: an archive with the parts of a file that holds a grid gives
the table of the grid's values. -/
theorem C85_xlsx {A D : Type} (env : Env) (lib : Lib A D) (search : Str → Option (Str → Bool))
    (reMatch : Str → Str → Py Bool) (toInt : Str → Option Int) (pieces : Str → List Str) (a : FileArgs D) (k t : Nat)
    (hk : a.iter.skipRows = k) (ht : a.iter.takeRows = t) (ha : a.table.Sensible) (z : Archive) (f : XlsxFile)
    (hz : z.HasXlsx pieces f) (isNull : Str → Bool)
    (hnull : ∀ s, isNull s = (decide (s ∈ errorTexts) || a.nulls.asks s))
    (o : ConcatOpts) (ho : o = concatOpts a.conflict a.formats a.precision)
    (formats : List StyleClass) (shared : List Str) (g : TGrid)
    (h : f.Holds env toInt a.iter.sheet isNull formats shared g) (V : VGrid)
    (hV : V = (g.values env isNull formats shared).shownXlsx k t a.iter.keepEmpty a.iter.skipCols)
    (hres : V.Resolvable env o g.inline) (hdata : V.flatten ≠ [] → V.HasData env search a.table o) :
    readArchive env lib search reMatch toInt pieces a z =
      if V.flatten = [] then .error .valueError else V.table env lib search reMatch a.table o := by
  obtain ⟨es, ⟨rb, r1, r2⟩, r3, r4⟩ := hz.rels
  obtain ⟨⟨wb, w1, w2⟩, w3⟩ := hz.workbook
  have hkind : fileKind (z.map (·.1)) = .ok .xlsx := by simp [fileKind, has_mem w1]
  unfold readArchive
  rw [hkind]
  simp only [Kind.relsName, has_part r1, openPart, isXml_parse r2, scanRels_eq es r3]
  refine C69_xlsx env lib search reMatch toInt a k t hk ht ha _ (has_mem w1) isNull hnull o ho formats shared g ?_ V hV hres
    hdata
  have one : ∀ (n : Str) (d : XmlDoc), z.HasXml pieces n d.events ∧ d.bad = false →
      (z.part n).map (parsePart pieces) = some d := by
    rintro n d ⟨⟨b, b1, b2⟩, b3⟩
    rw [has_part b1]
    simp only [Option.map_some, isXml_parse b2]
    rw [← b3]
  have hw : parsePart pieces ((z.part workbookXml).getD []) = f.workbook := by
    rw [has_part w1, Option.getD_some, isXml_parse w2, ← w3]
  refine ⟨?_, ?_, ?_, h.fits⟩
  · obtain ⟨sheets, path, s, p1, p2, p3, p4, p5, p6⟩ := h.path
    refine ⟨sheets, path, s, ?_, p2, one _ _ (hz.parts _ _ p3), p4, p5, p6⟩
    simp only [Archive.package, hw]
    rw [← r4]
    exact p1
  · obtain ⟨es, s1, s2⟩ := h.styles
    exact ⟨es, one _ _ (hz.styles _ s1), s2⟩
  · obtain ⟨pre, post, items, s1, s2⟩ := h.sst
    exact ⟨pre, post, items, one _ _ (hz.shared _ s1), s2⟩

/-- C85.  The same for an XLSB archive. -/
theorem C85_xlsb {A D : Type} (env : Env) (lib : Lib A D) (search : Str → Option (Str → Bool))
    (reMatch : Str → Str → Py Bool) (toInt : Str → Option Int) (pieces : Str → List Str) (a : FileArgs D) (k t : Nat)
    (hk : a.iter.skipRows = k) (ht : a.iter.takeRows = t) (ha : a.table.Sensible) (z : Archive) (f : XlsbFile)
    (hz : z.HasXlsb pieces f) (o : ConcatOpts) (ho : o = concatOpts a.conflict a.formats a.precision)
    (temporal : List Bytes) (shared : List Str) (g : Grid)
    (h : f.Holds a.iter.sheet a.nulls.asks temporal shared g) (V : VGrid)
    (hV : V = (g.values temporal shared a.nulls.asks).shownXlsb k t a.iter.keepEmpty a.iter.skipCols)
    (hres : V.Resolvable env o g.inline) (hdata : V.flatten ≠ [] → V.HasData env search a.table o) :
    readArchive env lib search reMatch toInt pieces a z =
      if V.flatten = [] then .error .valueError else V.table env lib search reMatch a.table o := by
  obtain ⟨es, ⟨rb, r1, r2⟩, r3, r4⟩ := hz.rels
  have w1 := hz.workbook
  have hkind : fileKind (z.map (·.1)) = .ok .xlsb := by simp [fileKind, has_mem w1, hz.notXlsx]
  unfold readArchive
  rw [hkind]
  simp only [Kind.relsName, has_part r1, openPart, isXml_parse r2, scanRels_eq es r3]
  refine C69_xlsb env lib search reMatch toInt a k t hk ht ha _ hz.notXlsx (has_mem w1) o ho temporal shared g ?_ V hV hres
    hdata
  refine ⟨?_, ?_, ?_, h.fits, h.value⟩
  · obtain ⟨sheets, path, part, rs, hdrs, tail, p1, p2, p3, p4⟩ := h.path
    refine ⟨sheets, path, part, rs, hdrs, tail, ?_, p2, has_part (hz.parts _ _ p3), p4⟩
    simp only [Archive.package, has_part w1, Option.getD_some]
    rw [← r4]
    exact p1
  · obtain ⟨b, s1, s2⟩ := h.styles
    exact ⟨b, has_part (hz.styles _ s1), s2⟩
  · obtain ⟨b, items, s1, s2⟩ := h.sst
    exact ⟨b, items, has_part (hz.shared _ s1), s2⟩

/-! ### An archive as a text editor shows it -/

/-- An entry with a text. -/
def exEntry (name text : String) : Str × Bytes := (name.toList, utf8Bytes false text.toList)

/-- Two columns and two rows: a shared string, a number, a text, a date. -/
def exZip : Archive :=
  [exEntry "[Content_Types].xml" "<Types/>",
   exEntry "xl/_rels/workbook.xml.rels" ("<?xml version=\"1.0\"?>\r\n<Relationships><Relationship Target='worksheets/s.xml' Id='r1' " ++
     "Type='http://x/worksheet'/><Relationship Id='r2' Type='http://x/styles' Target='styles.xml' /></Relationships>"),
   exEntry "xl/workbook.xml" "<workbook><!-- one --><sheets><sheet name='A &amp; B' r:id='r1'/></sheets></workbook>",
   exEntry "xl/styles.xml" "<s><cellXfs><xf numFmtId='0' xfId='0'/><xf numFmtId='14' xfId='0'/><xf numFmtId='1' xfId='0'/></cellXfs></s>",
   exEntry "xl/sharedStrings.xml" "<sst><si><t>x<![CDATA[&]]>y</t></si></sst>",
   exEntry "xl/worksheets/s.xml" ("<worksheet><sheetData>\r\n <row r='1'><c r='A1' t='s'><v>0</v></c><c r='B1' s='1'><v>1</v></c></row>\r\n" ++
     " <row r='2'><c r='A2'><v> z&lt; </v></c><c r='B2' s='1'><v>2</v></c></row>\r\n</sheetData></worksheet>")]

def exReadZip (z : Archive) (ia : IterArgs) : Py (List Fetched) :=
  (readArchive demoEnv exLib (fun _ => none) (fun _ _ => .ok false) exInt (fun s => [s]) { iter := ia } z).map (·.arrays)

example : exReadZip exZip {} = .ok [.arr ⟨.utf8, [some (.str "x&y".toList), some (.str "z<".toList)]⟩,
      .arr ⟨.ts, [some (.ts (-2209075200000 + 86400000)), some (.ts (-2209075200000 + 2 * 86400000))]⟩] := by
  decide +kernel

/-- Replace an entry. -/
def exWith (name text : String) : Archive := exZip.map fun e => if e.1 = name.toList then exEntry name text else e

/-- Finding, C85 (see C45): a sheet that is not well-formed is read up to the error without a word, while every other
part raises.  Here the second row is lost because of a wrong end tag. -/
theorem C85_malformed_sheet :
    exReadZip (exWith "xl/worksheets/s.xml" ("<worksheet><sheetData><row r='1'><c r='A1' t='s'><v>0</v></c></row>" ++
        "<row r='2'></c><c r='A2' t='s'><v>0</v></c></row></sheetData></worksheet>")) {} =
      .ok [.arr ⟨.utf8, [some (.str "x&y".toList)]⟩] ∧
    exReadZip (exWith "xl/worksheets/s.xml" ("<worksheet><sheetData><row r='1'><c r='A1' t='s'><v>0</v></c></row>" ++
        "<row r='2'><c r='A2' t='s'><v>0</v></c></row></sheetData></worksheet>")) {} =
      .ok [.arr ⟨.utf8, [some (.str "x&y".toList), some (.str "x&y".toList)]⟩] ∧
    exReadZip (exWith "xl/sharedStrings.xml" "<sst><si><t>x</t></si>") {} = .error .runtimeError ∧
    exReadZip (exWith "xl/styles.xml" "<s><cellXfs></s>") {} = .error .runtimeError ∧
    exReadZip (exWith "xl/workbook.xml" "<workbook><sheets><sheet name='A' name='B' r:id='r1'/></sheets></workbook>") {} =
      .error .runtimeError ∧
    exReadZip (exWith "xl/_rels/workbook.xml.rels" "<Relationships><Relationship Id='r1' Type='worksheet'/></Relationships>") {} =
      .error .keyError := by
  decide +kernel

/-- Of two entries with the same name the last one counts; without relationships nothing can be read. -/
example : exReadZip (exZip ++ [exEntry "xl/sharedStrings.xml" "<sst><si><t>w</t></si></sst>"]) { skipCols := [1] } =
      .ok [.arr ⟨.utf8, [some (.str "w".toList), some (.str "z<".toList)]⟩] ∧
    exReadZip (exZip.filter fun e => e.1 ≠ xlsxRelsName) {} = .error .keyError ∧
    exReadZip (exZip.filter fun e => e.1 ≠ workbookXml) {} = .error .assertionError := by
  decide +kernel

/-- C85: the names of parts, elements and attributes that the readers look for are those of ECMA-376 (part 1, 18, and
part 2, 9) and MS-XLSB. -/
theorem C85_vocabulary :
    [workbookXml, xlsxRelsName, xlsxSharedName, xlsxStylesName, workbookBin, xlsbRelsName, xlsbSharedName, xlsbStylesName].map
      String.ofList = ["xl/workbook.xml", "xl/_rels/workbook.xml.rels", "xl/sharedStrings.xml", "xl/styles.xml",
        "xl/workbook.bin", "xl/_rels/workbook.bin.rels", "xl/sharedStrings.bin", "xl/styles.bin"] ∧
    [tagRelationship, attId, attType, attTarget].map String.ofList = ["Relationship", "Id", "Type", "Target"] ∧
    [tagC, tagV, tagRow, tagSi, tagXf, tagNumFmt, tagSheet].map String.ofList =
      ["c", "v", "row", "si", "xf", "numFmt", "sheet"] ∧
    [attR, attT, attS, attXfId, attNumFmtId, attFormatCode, attRId, attName, worksheetType].map String.ofList =
      ["r", "t", "s", "xfId", "numFmtId", "formatCode", "r:id", "name", "worksheet"] := by
  decide +kernel

end Rxls
