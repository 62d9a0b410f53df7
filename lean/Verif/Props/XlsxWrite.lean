import Verif.Props.Archive
import Verif.Lemmas.XlsxWrite

/-! # Property C85 for the workbooks of a reference writer -/

namespace Rxls

/-- The file an application means. -/
def WBook.file (b : WBook) (path : Str) (rows : List (List WCell)) : XlsxFile where
  rels := relationships b.relsDoc
  workbook := ⟨b.workbookDoc, false⟩
  shared := some ⟨b.sharedDoc, false⟩
  styles := some ⟨b.stylesDoc, false⟩
  parts := fun n => if n = path then some ⟨(sheetOf rows).events, false⟩ else none

/-- Its sheets. -/
theorem sheets_written (b : WBook) (h : (b.sheets.map (·.1)).Nodup) :
    xlsxSheets (relationships b.relsDoc) ⟨b.workbookDoc, false⟩ =
      .ok (b.sheets.zipIdx.map fun p => (p.1.1, xlPrefix ++ sheetTarget p.2)) := by
  have hidx : (b.sheets.zipIdx.map (·.2)).Nodup := by
    rw [List.zipIdx_map_snd]
    exact List.nodup_range'
  have hid : (b.sheets.zipIdx.map fun p => relIdOf p.2).Nodup := by
    have : (b.sheets.zipIdx.map fun p => relIdOf p.2) = (b.sheets.zipIdx.map (·.2)).map relIdOf := by rw [List.map_map]; rfl
    rw [this]
    refine hidx.map fun i j hij => ?_
    have := pyStr_inj (List.append_cancel_left hij)
    omega
  have ht : ∀ i, (['w', 'o', 'r', 'k', 's', 'h', 'e', 'e', 't', 's', '/', 's', 'h', 'e', 'e', 't'] ++
      (relIdOf i).drop 3 ++ ['.', 'x', 'm', 'l']) = sheetTarget i := fun i => rfl
  rw [C52_xlsx_sheets (relationships b.relsDoc) b.workbookDoc (sheetsComplete_written b)
    (fun r => ['w', 'o', 'r', 'k', 's', 'h', 'e', 'e', 't', 's', '/', 's', 'h', 'e', 'e', 't'] ++ r.drop 3 ++ ['.', 'x', 'm', 'l']),
    sheetEntries_written, List.map_map]
  · rfl
  · rw [relationships_written, List.map_map]
    exact hid
  · rw [sheetEntries_written, List.map_map]
    exact hid
  · rw [sheetEntries_written, List.map_map]
    have : ((fun x : Str × Str => x.2) ∘ fun p : (Str × List (List WCell)) × Nat => (relIdOf p.2, p.1.1)) =
      (fun s : Str × List (List WCell) => s.1) ∘ (·.1) := rfl
    rw [this, ← List.map_map, List.zipIdx_map_fst]
    exact h
  · intro e he
    rw [sheetEntries_written] at he
    obtain ⟨p, hp, rfl⟩ := List.mem_map.mp he
    rw [relationships_written]
    exact List.mem_map.mpr ⟨p, hp, rfl⟩

theorem find_nodup {α : Type} (l : List (Str × α)) (h : (l.map (·.1)).Nodup) (i : Nat) (n : Str) (a : α)
    (hi : l[i]? = some (n, a)) : l.find? (fun p => p.1 = n) = some (n, a) := by
  induction l generalizing i with
  | nil => simp at hi
  | cons p l ih =>
    simp only [List.map_cons, List.nodup_cons] at h
    cases i with
    | zero =>
      simp only [List.getElem?_cons_zero, Option.some.injEq] at hi
      simp [hi]
    | succ i =>
      simp only [List.getElem?_cons_succ] at hi
      have hm : (n, a) ∈ l := List.mem_of_getElem? hi
      have : p.1 ≠ n := fun e => h.1 (List.mem_map.mpr ⟨_, hm, e.symm⟩)
      rw [List.find?_cons]
      simp only [this, decide_false]
      exact ih h.2 i hi

theorem select_written (b : WBook) (h : (b.sheets.map (·.1)).Nodup) (arg : SheetArg) (name : Str) (rows : List (List WCell))
    (i : Nat) (hi : b.sheets[i]? = some (name, rows)) (ha : arg = .index i ∨ arg = .name name) :
    selectSheet (b.sheets.zipIdx.map fun p => (p.1.1, xlPrefix ++ sheetTarget p.2)) arg = .ok (xlPrefix ++ sheetTarget i) := by
  have hz : (b.sheets.zipIdx.map fun p => (p.1.1, xlPrefix ++ sheetTarget p.2))[i]? = some (name, xlPrefix ++ sheetTarget i) := by
    simp [List.getElem?_map, List.getElem?_zipIdx, hi]
  rcases ha with rfl | rfl
  · have hl : i < b.sheets.length := (List.getElem?_eq_some_iff.mp hi).1
    simp only [selectSheet, List.length_map, List.length_zipIdx]
    rw [if_pos (by omega)]
    simp only [Int.toNat_natCast, hz]
  · have hf := find_nodup _ (by
      rw [List.map_map]
      have : ((fun x : Str × Str => x.1) ∘ fun p : (Str × List (List WCell)) × Nat => (p.1.1, xlPrefix ++ sheetTarget p.2)) =
        (fun s : Str × List (List WCell) => s.1) ∘ (·.1) := rfl
      rw [this, ← List.map_map, List.zipIdx_map_fst]
      exact h) i _ _ hz
    simp only [selectSheet, hf]

theorem file_holds (env : Env) (toInt : Str → Option Int) (isNull : Str → Bool) (b : WBook) (hb : b.Ok env toInt isNull)
    (arg : SheetArg) (name : Str) (rows : List (List WCell)) (i : Nat) (hi : b.sheets[i]? = some (name, rows))
    (ha : arg = .index i ∨ arg = .name name) (hc : ∀ row ∈ rows, ∀ c ∈ row, c.Ok env isNull b) :
    (b.file (xlPrefix ++ sheetTarget i) rows).Holds env toInt arg isNull b.classes b.texts (gridOf rows) := by
  refine ⟨⟨_, _, sheetOf rows, sheets_written b hb.names, select_written b hb.names arg name rows i hi ha, if_pos rfl, ?_, ?_, ?_⟩,
    ⟨b.stylesDoc, rfl, stylesComplete_written b, ?_, ?_, ?_⟩,
    ⟨[.start tagSst []], [.close tagSst], b.shared.map siOf, rfl, ?_, ?_, ?_, ?_⟩, ?_⟩
  · simp only [sheetOf, List.map_map]
    have : ((fun r : XRow => r.cells) ∘ fun p : List TCell × Nat => (⟨[(attR, pyStr (p.2 + 1))], p.1.map TCell.xml⟩ : XRow)) =
      (List.map TCell.xml) ∘ (·.1) := rfl
    rw [this, ← List.map_map, List.zipIdx_map_fst]
  · simp [sheetOf, Xml.plain, tagWorksheet, tagSheetData, tagC, tagRow]
  · simp [sheetOf, Xml.plain, tagWorksheet, tagSheetData, tagC, tagRow]
  · rw [numFmts_written, List.map_map]
    have : ((fun x : Str × Str => x.1) ∘ fun p : Nat × Str => (pyStr p.1, p.2)) = pyStr ∘ (·.1) := rfl
    rw [this, ← List.map_map]
    exact hb.codes.map fun i j => pyStr_inj
  · intro y hy
    rw [cellFmts_written] at hy
    obtain ⟨n, hn, rfl⟩ := List.mem_map.mp hy
    rw [hb.ints n hn]
    rfl
  · rw [cellFmts_written, numFmts_written, List.map_map]
    refine List.map_congr_left fun n hn => ?_
    simp only [Function.comp, hb.ints n hn, Option.getD_some]
  · simp [Xml.noSi, tagSst, tagSi]
  · simp [Xml.noSi, tagSst, tagSi]
  · intro x hx e he
    obtain ⟨s, -, rfl⟩ := List.mem_map.mp hx
    simp only [siOf, elem, List.mem_cons, List.mem_append, List.not_mem_nil, or_false] at he
    rcases he with rfl | rfl | rfl
    · exact (by decide : tagT ≠ tagSi)
    · trivial
    · exact (by decide : tagT ≠ tagSi)
  · rw [List.map_map, WBook.texts, List.map_map]
    refine List.map_congr_left fun s hs => ?_
    obtain ⟨-, h1, h2⟩ := hb.shared s hs
    exact entry_written isNull s h1 h2
  · intro row hrow c hcm
    obtain ⟨⟨w, j⟩, hw, rfl⟩ := List.mem_map.mp hrow
    obtain ⟨d, hd, rfl⟩ := List.mem_map.mp hcm
    have ok := hc _ (List.fst_mem_of_mem_zipIdx hw) d hd
    refine ⟨rowDigits_ok j, ?_, by simp, by simp, fun i hi => (ok.index i hi).2, fun hbl => ?_⟩
    · simpa [WBook.classes] using ok.style
    · simp only [TCell.value]
      cases hd : d.content with
      | shared i =>
        have := (ok.index i hd).1
        simp [WBook.texts, this]
      | plain s =>
        simp only [TCell.blank, hd, Bool.or_eq_false_iff, decide_eq_false_iff_not] at hbl
        simp only [TCell.cls]
        have hn := ok.number s hd
        cases hk : b.classes.getD (d.style.getD 0) .other with
        | other => rfl
        | numeric =>
          rcases hn (by rw [hk]; decide) with h | h | h
          · simpa using h
          · exact absurd h hbl.1
          · rw [hbl.2] at h
            cases h
        | temporal =>
          rcases hn (by rw [hk]; decide) with h | h | h
          · simpa using h
          · exact absurd h hbl.1
          · rw [hbl.2] at h
            cases h

/-- C85.  A workbook written by an application is read back: an archive that has the entries of the workbook (and any
others) gives the table of the values in the sheet asked for.  Every step is covered: the bytes of the entries, XML, the
relationships, the choice of the sheet, number formats, shared strings, cells, columns, conflicts, header, row filters
and types. -/
theorem C85_written {A D : Type} (env : Env) (lib : Lib A D) (search : Str → Option (Str → Bool))
    (reMatch : Str → Str → Py Bool) (toInt : Str → Option Int) (pieces : Str → List Str) (hpc : Buffered pieces)
    (a : FileArgs D) (k t : Nat) (hk : a.iter.skipRows = k) (ht : a.iter.takeRows = t) (ha : a.table.Sensible)
    (isNull : Str → Bool) (hnull : ∀ s, isNull s = (decide (s ∈ errorTexts) || a.nulls.asks s))
    (o : ConcatOpts) (ho : o = concatOpts a.conflict a.formats a.precision)
    (b : WBook) (hb : b.Ok env toInt isNull) (name : Str) (rows : List (List WCell)) (hs : b.Selects a.iter.sheet name rows)
    (hc : ∀ s ∈ b.sheets, ∀ row ∈ s.2, ∀ c ∈ row, c.Ok env isNull b)
    (z : Archive) (hz : ∀ e ∈ b.entries, e ∈ z) (hnd : (z.map (·.1)).Nodup) (V : VGrid)
    (hV : V = ((gridOf rows).values env isNull b.classes b.texts).shownXlsx k t a.iter.keepEmpty a.iter.skipCols)
    (hres : V.Resolvable env o (gridOf rows).inline) (hdata : V.flatten ≠ [] → V.HasData env search a.table o) :
    readArchive env lib search reMatch toInt pieces a z =
      if V.flatten = [] then .error .valueError else V.table env lib search reMatch a.table o := by
  obtain ⟨i, hi, hsel⟩ := hs
  have hrows := hc _ (List.mem_of_getElem? hi)
  refine C85_xlsx env lib search reMatch toInt pieces a k t hk ht ha z (b.file (xlPrefix ++ sheetTarget i) rows) ?_ isNull hnull
    o ho b.classes b.texts (gridOf rows) (file_holds env toInt isNull b hb _ name rows i hi hsel hrows) V hV hres hdata
  have part : ∀ n es, (n, xmlBytes es) ∈ b.entries → XmlTree es → z.HasXml pieces n es := fun n es hm htree =>
    ⟨xmlBytes es, has_of_nodup hnd (hz _ hm), xmlBytes_isXml hpc htree⟩
  refine ⟨⟨b.relsDoc, part _ _ (by simp [WBook.entries]) (relsDoc_tree b), relsComplete_written b, rfl⟩,
    ⟨part _ _ (by simp [WBook.entries, WBook.file]) (workbookDoc_tree b hb.name), rfl⟩, ?_, ?_, ?_⟩
  · intro d hd
    simp only [WBook.file, Option.some.injEq] at hd
    subst hd
    exact ⟨part _ _ (by simp [WBook.entries]) (sharedDoc_tree b fun s h => (hb.shared s h).1), rfl⟩
  · intro d hd
    simp only [WBook.file, Option.some.injEq] at hd
    subst hd
    exact ⟨part _ _ (by simp [WBook.entries]) (stylesDoc_tree b hb.code), rfl⟩
  · intro n d hd
    simp only [WBook.file] at hd
    split at hd
    · rename_i hn
      simp only [Option.some.injEq] at hd
      subst hd hn
      refine ⟨part _ _ ?_ (sheetOf_tree rows fun row hrow c hcm => (hrows row hrow c hcm).text), rfl⟩
      refine List.mem_append_right _ (List.mem_map.mpr ⟨((name, rows), i), ?_, rfl⟩)
      rw [List.mem_iff_getElem?]
      exact ⟨i, by simp [List.getElem?_zipIdx, hi]⟩
    · cases hd

/-- The entries of a written workbook have different names, so the archive may consist of them alone. -/
theorem entries_nodup (b : WBook) : (b.entries.map (·.1)).Nodup := by
  have hsheet : (b.sheets.zipIdx.map fun p => xlPrefix ++ sheetTarget p.2).Nodup := by
    have hidx : (b.sheets.zipIdx.map (·.2)).Nodup := by
      rw [List.zipIdx_map_snd]
      exact List.nodup_range'
    have : (b.sheets.zipIdx.map fun p => xlPrefix ++ sheetTarget p.2) =
        (b.sheets.zipIdx.map (·.2)).map fun i => xlPrefix ++ sheetTarget i := by rw [List.map_map]; rfl
    rw [this]
    refine hidx.map fun i j hij => ?_
    have h1 := List.append_cancel_left hij
    unfold sheetTarget at h1
    have := pyStr_inj (List.append_cancel_left (List.append_cancel_right h1))
    omega
  unfold WBook.entries
  rw [List.map_append, List.map_map]
  refine List.nodup_append.mpr ⟨by simp only [List.map_cons, List.map_nil]; decide, hsheet, ?_⟩
  intro n hn m hm e
  subst e
  obtain ⟨p, -, hp⟩ := List.mem_map.mp hm
  have hpre : (xlPrefix ++ ['w', 'o', 'r', 'k', 's']).isPrefixOf n = true := by
    rw [← hp, List.isPrefixOf_iff_prefix]
    exact ⟨['h', 'e', 'e', 't', 's', '/', 's', 'h', 'e', 'e', 't'] ++ pyStr (p.2 + 1) ++ ['.', 'x', 'm', 'l'], by
      simp [sheetTarget, List.append_assoc]⟩
  simp only [List.map_cons, List.map_nil, List.mem_cons, List.not_mem_nil, or_false] at hn
  rcases hn with rfl | rfl | rfl | rfl <;> revert hpre <;> decide

/-- A workbook with two sheets. -/
def exWBook : WBook where
  sheets := [("Data <1>".toList, [[⟨0, none, .shared 1⟩, ⟨1, some 1, .plain ['1']⟩], [], [⟨0, none, .plain ['w']⟩, ⟨27, some 2, .plain ['7']⟩]]),
    ("Other".toList, [[⟨2, some 3, .plain ['5', '9']⟩]])]
  shared := ["a & b".toList, " \"q\"\r\n".toList]
  formats := [0, 14, 1, 164]
  codes := [(164, "yyyy\"<\"".toList)]

example : exReadZip exWBook.entries { skipCols := [] } =
      .ok [.arr ⟨.utf8, [some (.str "\"q\"".toList), none, some (.str ['w'])]⟩,
        .arr ⟨.ts, [some (.ts (-2208988800000)), none, none]⟩,
        .arr ⟨.i8, [none, none, some (.i8 7)]⟩] ∧
    exReadZip exWBook.entries { sheet := .name "Other".toList } =
      .ok [.arr ⟨.ts, [some (.ts (-2208988800000 + 58 * 86400000))]⟩] := by
  decide +kernel

/-- It satisfies the conditions. -/
example : exWBook.Ok demoEnv exInt (fun s => decide (s ∈ errorTexts)) ∧
    (∀ s ∈ exWBook.sheets, ∀ row ∈ s.2, ∀ c ∈ row, c.Ok demoEnv (fun s => decide (s ∈ errorTexts)) exWBook) ∧
    exWBook.Selects (.index 0) "Data <1>".toList [[⟨0, none, .shared 1⟩, ⟨1, some 1, .plain ['1']⟩], [], [⟨0, none, .plain ['w']⟩, ⟨27, some 2, .plain ['7']⟩]] := by
  have h1 : ∀ s ∈ exWBook.shared, (s ≠ [] ∧ (∀ c ∈ s, xmlChar c = true) ∧ (s.flatMap String.utf8EncodeChar).length ≤ 8192) ∧
      pyStrip s ≠ [] ∧ decide (pyStrip s ∈ errorTexts) = false := by decide +kernel
  have h2 : ∀ s ∈ exWBook.sheets, ∀ c ∈ s.1, xmlChar c = true := by decide +kernel
  have h3 : ∀ p ∈ exWBook.codes, ∀ c ∈ p.2, xmlChar c = true := by decide +kernel
  have h4 : ∀ s ∈ exWBook.sheets, ∀ row ∈ s.2, ∀ c ∈ row, (c.content.text ≠ [] ∧ (∀ x ∈ c.content.text, xmlChar x = true) ∧
      (c.content.text.flatMap String.utf8EncodeChar).length ≤ 8192) ∧ c.style.getD 0 < exWBook.formats.length ∧
      (∀ i ∈ List.range 2, c.content = .shared i → demoEnv.pyInt (pyStr i) = some i ∧ decide (pyStr i ∈ errorTexts) = false) ∧
      (match c.content with | .shared i => decide (i < 2) | .plain s => (demoEnv.pyFloat (pyStrip s)).isSome || c.style.isNone) = true := by decide +kernel
  refine ⟨⟨by decide +kernel, h2, h1, by decide +kernel, h3, by decide +kernel⟩, ?_, ⟨0, rfl, .inl rfl⟩⟩
  intro s hs row hrow c hc
  obtain ⟨g1, g2, g3, g4⟩ := h4 s hs row hrow c hc
  refine ⟨g1, g2, fun i hi => ?_, fun t ht hk => ?_⟩
  · rw [hi] at g4
    have g4' : i < 2 := of_decide_eq_true g4
    obtain ⟨g5, g6⟩ := g3 i (List.mem_range.mpr g4') hi
    exact ⟨g4', by omega, g5, g6⟩
  · rw [ht] at g4
    rcases Bool.or_eq_true_iff.mp g4 with h | h
    · exact .inl h
    · rw [Option.isNone_iff_eq_none.mp h] at hk
      exact absurd (by decide +kernel) hk

end Rxls
