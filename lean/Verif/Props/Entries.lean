import Verif.Props.Archive
import Verif.Props.Names
import Verif.Props.Table
import Verif.Props.EndToEndXlsx

/-! # C95: which entries of the archive count -/

namespace Rxls

/-- The entries whose names are fixed: what package tools call the workbook part with its relationships, the shared
strings part and the styles part, in the places where Excel puts them. -/
def fixedEntries : List Str :=
  ["xl/workbook.xml", "xl/workbook.bin", "xl/_rels/workbook.xml.rels", "xl/_rels/workbook.bin.rels",
    "xl/sharedStrings.xml", "xl/sharedStrings.bin", "xl/styles.xml", "xl/styles.bin"].map String.toList

theorem part_isSome (z : Archive) (n : Str) : (z.part n).isSome = true ↔ n ∈ z.map (·.1) := by
  unfold Archive.part
  rw [Option.isSome_map, List.mem_map, List.getLast?_isSome]
  constructor
  · intro h
    obtain ⟨e, he⟩ := List.exists_mem_of_ne_nil _ h
    rw [List.mem_filter] at he
    exact ⟨e, he.1, by simpa using he.2⟩
  · rintro ⟨e, he, hn⟩
    have : e ∈ z.filter (fun e => e.1 = n) := List.mem_filter.2 ⟨he, by simpa using hn⟩
    exact List.ne_nil_of_mem this

theorem readXlsx_path {A D : Type} (env : Env) (lib : Lib A D) (search : Str → Option (Str → Bool))
    (reMatch : Str → Str → Py Bool) (toInt : Str → Option Int) (isNull : Str → Bool) (o : ConcatOpts) (ia : IterArgs)
    (args : ReadArgs D) (f : XlsxFile) :
    ∃ path, xlPrefix <+: path ∧ ∀ parts : Str → Option XmlDoc, parts path = f.parts path →
      readXlsx env lib search reMatch toInt isNull o ia args { f with parts := parts } =
        readXlsx env lib search reMatch toInt isNull o ia args f := by
  cases h1 : xlsxSheets f.rels f.workbook with
  | error e => exact ⟨xlPrefix, List.prefix_refl _, fun _ _ => by unfold readXlsx; simp only [h1]⟩
  | ok sheets =>
    cases h2 : selectSheet sheets ia.sheet with
    | error e => exact ⟨xlPrefix, List.prefix_refl _, fun _ _ => by unfold readXlsx; simp only [h1, h2]⟩
    | ok path =>
      refine ⟨path, ?_, fun parts hp => by unfold readXlsx; simp only [h1, h2, hp]; rfl⟩
      obtain ⟨p, hm, rfl⟩ := selectSheet_mem h2
      obtain ⟨r, -, -, he⟩ := xlsxSheets_paths h1 p hm
      exact he ▸ List.prefix_append _ _

theorem readXlsb_path {A D : Type} (env : Env) (lib : Lib A D) (search : Str → Option (Str → Bool))
    (reMatch : Str → Str → Py Bool) (isNull : Str → Bool) (o : ConcatOpts) (ia : IterArgs)
    (args : ReadArgs D) (f : XlsbFile) :
    ∃ path, xlPrefix <+: path ∧ ∀ parts : Str → Option Bytes, parts path = f.parts path →
      readXlsb env lib search reMatch isNull o ia args { f with parts := parts } =
        readXlsb env lib search reMatch isNull o ia args f := by
  cases h1 : xlsbSheets f.rels f.workbook with
  | error e => exact ⟨xlPrefix, List.prefix_refl _, fun _ _ => by unfold readXlsb; simp only [h1]⟩
  | ok sheets =>
    cases h2 : selectSheet sheets ia.sheet with
    | error e => exact ⟨xlPrefix, List.prefix_refl _, fun _ _ => by unfold readXlsb; simp only [h1, h2]⟩
    | ok path =>
      refine ⟨path, ?_, fun parts hp => by unfold readXlsb; simp only [h1, h2, hp]; rfl⟩
      obtain ⟨p, hm, rfl⟩ := selectSheet_mem h2
      obtain ⟨r, -, he⟩ := xlsbSheetsFrom_paths (by simp) h1 p hm
      exact he ▸ List.prefix_append _ _

/-- C95.  For every archive and all arguments there is one entry in `xl/`, the selected sheet, such that `read` gives the
same for every archive that has the same content under this name and the fixed names.  Everything else in the archive,
such as other sheets, content types and document properties, has no influence. -/
theorem C95_one_sheet {A D : Type} (env : Env) (lib : Lib A D) (search : Str → Option (Str → Bool))
    (reMatch : Str → Str → Py Bool) (toInt : Str → Option Int) (pieces : Str → List Str) (a : FileArgs D) (z : Archive) :
    ∃ path, xlPrefix <+: path ∧ ∀ z' : Archive, (∀ n ∈ path :: fixedEntries, z'.part n = z.part n) →
      readArchive env lib search reMatch toInt pieces a z' = readArchive env lib search reMatch toInt pieces a z := by
  have hkind : ∀ z' : Archive, (∀ n ∈ fixedEntries, z'.part n = z.part n) →
      fileKind (z'.map (·.1)) = fileKind (z.map (·.1)) := by
    intro z' h
    refine C59_nothing_else _ _ ?_ ?_ <;> rw [← part_isSome, ← part_isSome, h _ (by decide +kernel)]
  have hpre := List.prefix_refl xlPrefix
  cases h1 : fileKind (z.map (·.1)) with
  | error e =>
    refine ⟨xlPrefix, hpre, fun z' h => ?_⟩
    have hk := hkind z' fun n hn => h n (List.mem_cons_of_mem _ hn)
    unfold readArchive
    simp only [hk, h1]
  | ok kind =>
    have hrel : kind.relsName ∈ fixedEntries := by cases kind <;> decide +kernel
    cases h2 : openPart (z.part kind.relsName) with
    | error e =>
      refine ⟨xlPrefix, hpre, fun z' h => ?_⟩
      have hk := hkind z' fun n hn => h n (List.mem_cons_of_mem _ hn)
      unfold readArchive
      simp only [hk, h1, h2, h _ (List.mem_cons_of_mem _ hrel)]
    | ok b =>
      cases h3 : scanRels (parsePart pieces b) with
      | error e =>
        refine ⟨xlPrefix, hpre, fun z' h => ?_⟩
        have hk := hkind z' fun n hn => h n (List.mem_cons_of_mem _ hn)
        unfold readArchive
        simp only [hk, h1, h2, h _ (List.mem_cons_of_mem _ hrel), h3]
      | ok rels =>
        cases kind with
        | xlsx =>
          obtain ⟨path, hp, hr⟩ := readXlsx_path env lib search reMatch toInt (skipPredicate errorStringsXlsx a.nulls)
            (concatOpts a.conflict a.formats a.precision) a.iter a.table (z.package pieces rels).xlsx
          refine ⟨path, hp, fun z' h => ?_⟩
          have hf := fun n hn => h n (List.mem_cons_of_mem _ hn)
          have hk := hkind z' hf
          unfold readArchive
          simp only [hk, h1, h2, hf _ hrel, h3, readFile, Archive.package]
          simp only [Archive.package] at hr
          rw [← hr (fun n => (z'.part n).map (parsePart pieces)) (by rw [h _ (List.mem_cons_self ..)]),
            hf workbookXml (by decide +kernel), hf xlsxSharedName (by decide +kernel),
            hf xlsxStylesName (by decide +kernel)]
        | xlsb =>
          obtain ⟨path, hp, hr⟩ := readXlsb_path env lib search reMatch (skipPredicate errorStringsXlsb a.nulls)
            (concatOpts a.conflict a.formats a.precision) a.iter a.table (z.package pieces rels).xlsb
          refine ⟨path, hp, fun z' h => ?_⟩
          have hf := fun n hn => h n (List.mem_cons_of_mem _ hn)
          have hk := hkind z' hf
          unfold readArchive
          simp only [hk, h1, h2, hf _ hrel, h3, readFile, Archive.package]
          simp only [Archive.package] at hr
          rw [← hr z'.part (h _ (List.mem_cons_self ..)),
            hf workbookBin (by decide +kernel), hf xlsbSharedName (by decide +kernel),
            hf xlsbStylesName (by decide +kernel)]

/-- C95.  Archives with the same content under all names in `xl/` are read alike. -/
theorem C95_entries {A D : Type} (env : Env) (lib : Lib A D) (search : Str → Option (Str → Bool))
    (reMatch : Str → Str → Py Bool) (toInt : Str → Option Int) (pieces : Str → List Str) (a : FileArgs D)
    (z z' : Archive) (h : ∀ n, "xl/".toList <+: n → z'.part n = z.part n) :
    readArchive env lib search reMatch toInt pieces a z' = readArchive env lib search reMatch toInt pieces a z := by
  obtain ⟨path, hp, hr⟩ := C95_one_sheet env lib search reMatch toInt pieces a z
  refine hr z' fun n hn => h n ?_
  rcases List.mem_cons.1 hn with rfl | hn
  · exact hp
  · have : ∀ n ∈ fixedEntries, "xl/".toList <+: n := by decide +kernel
    exact this n hn

theorem part_perm {z z' : Archive} (hp : z.Perm z') (hn : (z.map (·.1)).Nodup) (n : Str) : z'.part n = z.part n := by
  have key : ∀ w : Archive, (w.map (·.1)).Nodup → ∀ e ∈ w, w.part e.1 = some e.2 := by
    intro w hw e he
    unfold Archive.part
    have : w.filter (fun x => x.1 = e.1) = [e] := by
      induction w with
      | nil => cases he
      | cons x w ih =>
        rw [List.map_cons, List.nodup_cons] at hw
        rcases List.mem_cons.1 he with rfl | he
        · rw [List.filter_cons_of_pos (by simp)]
          congr 1
          rw [List.filter_eq_nil_iff]
          intro y hy hye
          exact hw.1 (List.mem_map.2 ⟨y, hy, by simpa using hye⟩)
        · rw [List.filter_cons_of_neg]
          · exact ih hw.2 he
          · intro hx
            exact hw.1 (List.mem_map.2 ⟨e, he, (by simpa using hx : x.1 = e.1).symm⟩)
    rw [this]
    rfl
  by_cases hm : n ∈ z.map (·.1)
  · obtain ⟨e, he, rfl⟩ := List.mem_map.1 hm
    rw [key z hn e he, key z' ((hp.map _).nodup_iff.1 hn) e (hp.mem_iff.1 he)]
  · have hm' : n ∉ z'.map (·.1) := fun h => hm ((hp.map _).mem_iff.2 h)
    rw [← part_isSome] at hm hm'
    rw [Option.not_isSome_iff_eq_none.1 hm, Option.not_isSome_iff_eq_none.1 hm']

/-- C95.  The order in which the entries are stored does not matter. -/
theorem C95_order {A D : Type} (env : Env) (lib : Lib A D) (search : Str → Option (Str → Bool))
    (reMatch : Str → Str → Py Bool) (toInt : Str → Option Int) (pieces : Str → List Str) (a : FileArgs D)
    {z z' : Archive} (hp : z.Perm z') (hn : (z.map (·.1)).Nodup) :
    readArchive env lib search reMatch toInt pieces a z' = readArchive env lib search reMatch toInt pieces a z :=
  C95_entries env lib search reMatch toInt pieces a z z' fun n _ => part_perm hp hn n

example : exZip.Perm exZip.reverse ∧ (exZip.map (·.1)).Nodup ∧ exZip ≠ exZip.reverse ∧
    exReadZip exZip.reverse {} = exReadZip exZip {} ∧
    exReadZip (exZip.drop 1 ++ [exEntry "xl/worksheets/other.xml" "nonsense", exEntry "docProps/app.xml" ""]) {} =
      .ok [.arr ⟨.utf8, [some (.str "x&y".toList), some (.str "z<".toList)]⟩,
        .arr ⟨.ts, [some (.ts (-2209075200000 + 86400000)), some (.ts (-2209075200000 + 2 * 86400000))]⟩] := by
  refine ⟨(List.reverse_perm _).symm, ?_⟩
  decide +kernel

/-- Names of parts are equal when they differ in the case of ASCII letters only (ECMA-376 part 2, 6.2.2.3). -/
def sameName (a b : Str) : Bool := a.map Char.toLower = b.map Char.toLower

/-- The fixed names of a format. -/
def Kind.fixed : Kind → List Str
  | .xlsx => ["xl/workbook.xml", "xl/_rels/workbook.xml.rels", "xl/sharedStrings.xml", "xl/styles.xml"].map String.toList
  | .xlsb => ["xl/workbook.bin", "xl/_rels/workbook.bin.rels", "xl/sharedStrings.bin", "xl/styles.bin"].map String.toList

/-- Finding, C95 fails: a package standard has no fixed names, and no upper and lower case in names; the code does.  An
archive is only read when it has entries with exactly the fixed names of one of the formats. -/
theorem C95_fixed_names {A D : Type} (env : Env) (lib : Lib A D) (search : Str → Option (Str → Bool))
    (reMatch : Str → Str → Py Bool) (toInt : Str → Option Int) (pieces : Str → List Str) (a : FileArgs D)
    (z : Archive) (t : Table A) (h : readArchive env lib search reMatch toInt pieces a z = .ok t) :
    ∃ kind : Kind, ∀ n ∈ kind.fixed, n ∈ z.map (·.1) := by
  unfold readArchive at h
  cases h1 : fileKind (z.map (·.1)) with
  | error e => rw [h1] at h; cases h
  | ok kind =>
    simp only [h1] at h
    cases h2 : z.part kind.relsName with
    | none => rw [h2] at h; cases h
    | some b =>
      simp only [h2, openPart] at h
      cases h3 : scanRels (parsePart pieces b) with
      | error e => rw [h3] at h; cases h
      | ok rels =>
        simp only [h3, readFile, Archive.package, h1] at h
        have hr : kind.relsName ∈ z.map (·.1) := (part_isSome z _).1 (by rw [h2]; rfl)
        have hw := (C59_kind (z.map (·.1)))
        cases kind with
        | xlsx =>
          have hm := (C67_missing_part env lib search reMatch toInt _ _ _ _).1 _ _ h
          simp only [Option.isSome_map] at hm
          refine ⟨.xlsx, ?_⟩
          have e : Kind.xlsx.fixed = [workbookXml, xlsxRelsName, xlsxSharedName, xlsxStylesName] := by decide +kernel
          rw [e]
          intro n hn
          simp only [List.mem_cons, List.not_mem_nil, or_false] at hn
          rcases hn with rfl | rfl | rfl | rfl
          · exact hw.1.1 h1
          · exact hr
          · exact (part_isSome z _).1 hm.1
          · exact (part_isSome z _).1 hm.2
        | xlsb =>
          have hm := (C67_missing_part env lib search reMatch toInt _ _ _ _).2 _ _ h
          refine ⟨.xlsb, ?_⟩
          have e : Kind.xlsb.fixed = [workbookBin, xlsbRelsName, xlsbSharedName, xlsbStylesName] := by decide +kernel
          rw [e]
          intro n hn
          simp only [List.mem_cons, List.not_mem_nil, or_false] at hn
          rcases hn with rfl | rfl | rfl | rfl
          · exact (hw.2.1.1 h1).2
          · exact hr
          · exact (part_isSome z _).1 hm.1
          · exact (part_isSome z _).1 hm.2

/-- Change the name of an entry. -/
def exRename (old new : String) : Archive := exZip.map fun e => if e.1 = old.toList then (new.toList, e.2) else e

/-- The finding on an archive: with another case of the letters, or with the styles in another place and a relationship
that says so, it is not read. -/
theorem C95_case_finding :
    sameName "xl/SharedStrings.xml".toList "xl/sharedStrings.xml".toList = true ∧
    exReadZip (exRename "xl/sharedStrings.xml" "xl/SharedStrings.xml") {} = .error .keyError ∧
    exReadZip (exRename "xl/workbook.xml" "xl/Workbook.xml") {} = .error .assertionError ∧
    exReadZip (exRename "xl/worksheets/s.xml" "xl/worksheets/S.xml") {} = .error .keyError ∧
    exReadZip ((exRename "xl/styles.xml" "xl/formats.xml").map fun e => if e.1 = xlsxRelsName then
      exEntry "xl/_rels/workbook.xml.rels" ("<Relationships><Relationship Target='worksheets/s.xml' Id='r1' " ++
        "Type='http://x/worksheet'/><Relationship Id='r2' Type='http://x/styles' Target='formats.xml' /></Relationships>")
      else e) {} = .error .keyError := by
  decide +kernel

/-- A sheet without relationship: StopIteration when the names of the sheets are asked for, RuntimeError when the file is
read, KeyError for XLSX. -/
example : xlsbSheets [] exFile.workbook = .error .stopIteration ∧
    (readXlsb demoEnv exLib (fun _ => none) (fun _ _ => .ok false) (fun s => s == ['-']) exConcat {} {}
      { exFile with rels := [] }).map (·.arrays) = .error .runtimeError ∧
    (readXlsx demoEnv exLib (fun _ => none) (fun _ _ => .ok false) exInt (fun s => s == ['-']) exConcat {} {}
      { exXlsxFile with rels := [] }).map (·.arrays) = .error .keyError := by
  decide +kernel

end Rxls
