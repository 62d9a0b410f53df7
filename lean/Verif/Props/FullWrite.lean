import Verif.Spec.FullWrite
import Verif.Props.TwoFormats
import Verif.Props.FullRead
import Verif.Lemmas.Relabel

/-! # Properties C85 and C88 with conflicts and nulls of any sort -/

namespace Rxls

theorem file_stores (env : Env) (toInt : Str → Option Int) (isNull : Str → Bool) (b : WBook) (hb : b.Readable toInt)
    (arg : SheetArg) (name : Str) (rows : List (List WCell)) (i : Nat) (hi : b.sheets[i]? = some (name, rows))
    (ha : arg = .index i ∨ arg = .name name) (hc : ∀ row ∈ rows, ∀ c ∈ row, c.Readable env isNull b) :
    (b.file (xlPrefix ++ sheetTarget i) rows).Stores env toInt arg isNull b.classes (b.strings isNull) (gridOf rows) := by
  refine ⟨⟨_, _, sheetOf rows, sheets_written b hb.names, select_written b hb.names arg name rows i hi ha, if_pos rfl, ?_, ?_, ?_⟩,
    ⟨b.stylesDoc, rfl, stylesComplete_written b, ?_, ?_, ?_⟩,
    ⟨[.start tagSst []], [.close tagSst], b.shared.map siOf, rfl, ?_, ?_, ?_, ?_⟩, ?_⟩
  · simp only [sheetOf, List.map_map]
    have : ((fun r : XRow => r.cells) ∘ fun p : List TCell × Nat => (⟨[(attR, pyStr (p.2 + 1))], p.1.map TCell.xml⟩ : XRow)) =
      (List.map TCell.xml) ∘ (·.1) := rfl
    rw [this, ← List.map_map, List.zipIdx_map_fst]
  · simp [sheetOf, Xml.plain, tagWorksheet, tagSheetData, tagC, tagRow]
  · simp [sheetOf, Xml.plain, tagWorksheet, tagSheetData, tagC, tagRow]
  · rw [numFmts_written, List.map_map]
    have : ((fun x : Str × Str => x.1) ∘ fun p : Nat × Str => (pyStr p.1, p.2)) = pyStr ∘ (·.1) := rfl
    rw [this, ← List.map_map]
    exact hb.codes.map fun i j => pyStr_inj
  · intro y hy
    rw [cellFmts_written] at hy
    obtain ⟨n, hn, rfl⟩ := List.mem_map.mp hy
    rw [hb.ints n hn]
    rfl
  · rw [cellFmts_written, numFmts_written, List.map_map]
    refine List.map_congr_left fun n hn => ?_
    simp only [Function.comp, hb.ints n hn, Option.getD_some]
  · simp [Xml.noSi, tagSst, tagSi]
  · simp [Xml.noSi, tagSst, tagSi]
  · intro x hx e he
    obtain ⟨s, -, rfl⟩ := List.mem_map.mp hx
    simp only [siOf, elem, List.mem_cons, List.mem_append, List.not_mem_nil, or_false] at he
    rcases he with rfl | rfl | rfl
    · exact (by decide : tagT ≠ tagSi)
    · trivial
    · exact (by decide : tagT ≠ tagSi)
  · rw [List.map_map]
    unfold WBook.strings
    refine List.map_congr_left fun s _ => ?_
    by_cases h1 : pyStrip s = [] <;> by_cases h2 : isNull (pyStrip s) = true <;>
      simp [Si.entry, Si.texts, siOf, elem, h1, h2]
  · intro row hrow c hcm
    obtain ⟨⟨w, j⟩, hw, rfl⟩ := List.mem_map.mp hrow
    obtain ⟨d, hd, rfl⟩ := List.mem_map.mp hcm
    have ok := hc _ (List.fst_mem_of_mem_zipIdx hw) d hd
    refine ⟨rowDigits_ok j, ?_, by simp, by simp, fun i hi => (ok.index i hi).2, fun hbl => ?_⟩
    · simpa [WBook.classes] using ok.style
    · simp only [TCell.held]
      cases hd : d.content with
      | shared i =>
        have := (ok.index i hd).1
        simp [WBook.strings, this]
      | plain s =>
        simp only [TCell.passed, hd, Bool.or_eq_false_iff, decide_eq_false_iff_not] at hbl
        simp only [TCell.cls]
        have hn := ok.number s hd
        cases hk : b.classes.getD (d.style.getD 0) .other with
        | other => rfl
        | numeric =>
          rcases hn (by rw [hk]; decide) with h | h | h
          · simpa using h
          · exact absurd h hbl.1
          · rw [hbl.2] at h
            cases h
        | temporal =>
          rcases hn (by rw [hk]; decide) with h | h | h
          · simpa using h
          · exact absurd h hbl.1
          · rw [hbl.2] at h
            cases h

/-- C85.  A written XLSX workbook, with any conflict resolution and shared strings that may be blank or null: what `read`
gives is the outcome of the cells shown, an error included. -/
theorem C85_written_full {A D : Type} (env : Env) (lib : Lib A D) (search : Str → Option (Str → Bool))
    (reMatch : Str → Str → Py Bool) (toInt : Str → Option Int) (pieces : Str → List Str) (hpc : Buffered pieces)
    (a : FileArgs D) (k t : Nat) (hk : a.iter.skipRows = k) (ht : a.iter.takeRows = t) (ha : a.table.Sensible)
    (isNull : Str → Bool) (hnull : ∀ s, isNull s = (decide (s ∈ errorTexts) || a.nulls.asks s))
    (o : ConcatOpts) (ho : o = concatOpts a.conflict a.formats a.precision)
    (b : WBook) (hb : b.Readable toInt) (name : Str) (rows : List (List WCell)) (hs : b.Selects a.iter.sheet name rows)
    (hc : ∀ s ∈ b.sheets, ∀ row ∈ s.2, ∀ c ∈ row, c.Readable env isNull b)
    (z : Archive) (hz : ∀ e ∈ b.entries, e ∈ z) (hnd : (z.map (·.1)).Nodup) (H : HGrid)
    (hH : H = (b.held env isNull rows).shownXlsx k t a.iter.keepEmpty a.iter.skipCols)
    (hdata : H.flatten ≠ [] → H.DataOrEnd env search reMatch a.table o) :
    readArchive env lib search reMatch toInt pieces a z = H.outcome env lib search reMatch a.table o := by
  obtain ⟨i, hi, hsel⟩ := hs
  have hrows := hc _ (List.mem_of_getElem? hi)
  refine C85_xlsx_full env lib search reMatch toInt pieces a k t hk ht ha z (b.file (xlPrefix ++ sheetTarget i) rows) ?_ isNull hnull
    o ho b.classes (b.strings isNull) (gridOf rows) (file_stores env toInt isNull b hb _ name rows i hi hsel hrows) H hH hdata
  have part : ∀ n es, (n, xmlBytes es) ∈ b.entries → XmlTree es → z.HasXml pieces n es := fun n es hm htree =>
    ⟨xmlBytes es, has_of_nodup hnd (hz _ hm), xmlBytes_isXml hpc htree⟩
  refine ⟨⟨b.relsDoc, part _ _ (by simp [WBook.entries]) (relsDoc_tree b), relsComplete_written b, rfl⟩,
    ⟨part _ _ (by simp [WBook.entries, WBook.file]) (workbookDoc_tree b hb.name), rfl⟩, ?_, ?_, ?_⟩
  · intro d hd
    simp only [WBook.file, Option.some.injEq] at hd
    subst hd
    exact ⟨part _ _ (by simp [WBook.entries]) (sharedDoc_tree b hb.shared), rfl⟩
  · intro d hd
    simp only [WBook.file, Option.some.injEq] at hd
    subst hd
    exact ⟨part _ _ (by simp [WBook.entries]) (stylesDoc_tree b hb.code), rfl⟩
  · intro n d hd
    simp only [WBook.file] at hd
    split at hd
    · rename_i hn
      simp only [Option.some.injEq] at hd
      subst hd hn
      refine ⟨part _ _ ?_ (sheetOf_tree rows fun row hrow c hcm => (hrows row hrow c hcm).text), rfl⟩
      refine List.mem_append_right _ (List.mem_map.mpr ⟨((name, rows), i), ?_, rfl⟩)
      rw [List.mem_iff_getElem?]
      exact ⟨i, by simp [List.getElem?_zipIdx, hi]⟩
    · cases hd

theorem heldGrid_written (b : BBook) (rows : List (List BCell)) (hc : ∀ row ∈ rows, ∀ c ∈ row, c.Ok b) (isNull : Str → Bool)
    (l : List Bytes) (hl : ∀ i < b.formats.length, (le16 i ++ [0] ∈ l ↔ b.dated i = true)) :
    Grid.held l b.shared isNull (rows.map (List.map BCell.grid)) = b.held isNull rows := by
  unfold Grid.held BBook.held
  rw [List.map_map]
  refine List.map_congr_left fun row hrow => ?_
  simp only [Function.comp, List.filter_map, List.map_map]
  refine List.map_congr_left fun c hcm => ?_
  have hok := hc row hrow c (List.mem_filter.mp hcm).1
  simp only [Function.comp]
  rw [(grid_cell b c hok isNull l hl).1]
  have : l.contains c.grid.style = b.dated c.style := by
    rw [Bool.eq_iff_iff, List.contains_iff_mem]
    exact hl _ hok.style
  rw [this]
  rfl

theorem stores_written (b : BBook) (isNull : Str → Bool) (hb : b.Ok isNull) (arg : SheetArg) (name : Str)
    (rows : List (List BCell)) (i : Nat) (hi : b.sheets[i]? = some (name, rows)) (ha : arg = .index i ∨ arg = .name name)
    (hc : ∀ row ∈ rows, ∀ c ∈ row, c.Ok b) (l : List Bytes)
    (hl : xlsbStyles (binBytes b.stylesRecs) = .ok l) :
    (b.file (xlPrefix ++ sheetTargetB i) rows).Stores arg l b.shared (rows.map (List.map BCell.grid)) := by
  refine ⟨⟨_, _, _, binSheet rows, fun i => le32 i ++ List.replicate 13 0, [⟨402, []⟩], sheets_writtenB b isNull hb,
    select_nth _ ?_ arg name _ i ?_ ha, if_pos rfl, binBytes_ok (sheet_fits b rows hc), ?_, .inr ⟨_, [], rfl, rfl⟩, by simp⟩,
    ⟨_, rfl, hl⟩, ⟨_, b.shared.map fun s => (0, s, []), rfl, ?_, ?_, ?_, ?_⟩, ?_⟩
  · rw [List.map_map]
    have : ((fun x : Str × Str => x.1) ∘ fun p : (Str × List (List BCell)) × Nat => (p.1.1, xlPrefix ++ sheetTargetB p.2)) =
      (fun s : Str × List (List BCell) => s.1) ∘ (·.1) := rfl
    rw [this, ← List.map_map, List.zipIdx_map_fst]
    exact hb.names
  · simp [List.getElem?_zipIdx, hi]
  · unfold binSheet
    rw [List.filter_append, List.filter_append, filter_head (rs := Grid.records _ _)]
    · simp [sheetIds]
    · intro r hr
      simp only [Grid.records, List.mem_flatMap, List.mem_cons, List.mem_map] at hr
      obtain ⟨p, hp, rfl | ⟨c, hcm, rfl⟩⟩ := hr
      · simp [sheetIds]
      · obtain ⟨row, h1, h2⟩ := List.mem_map.mp (List.fst_mem_of_mem_zipIdx hp)
        rw [← h2] at hcm
        obtain ⟨d, hd, rfl⟩ := List.mem_map.mp hcm
        cases hk : d.content <;> simp [GCell.record, BCell.grid, hk, Content.ids, sheetIds]
  · rw [scan_binBytes (shared_fits b isNull hb) _ (by simp)]
    unfold BBook.sharedRecs
    rw [List.filter_append, List.filter_append, filter_head (rs := List.map _ b.shared)]
    · simp
    · intro r hr
      obtain ⟨s, -, rfl⟩ := List.mem_map.mp hr
      simp [sstItem]
  · simpa using hb.count.2.1
  · intro x hx
    obtain ⟨s, hs, rfl⟩ := List.mem_map.mp hx
    have := hb.shared s hs
    exact ⟨this.1.1, by have := this.1.2; simp only; omega⟩
  · rw [List.map_map]; exact (List.map_id _).symm
  · intro row hrow c hcm
    obtain ⟨w, hw, rfl⟩ := List.mem_map.mp hrow
    obtain ⟨d, hd, rfl⟩ := List.mem_map.mp hcm
    have ok := hc w hw d hd
    have hcon := ok.content
    refine ⟨ok.col, by simp [BCell.grid, le16], ?_, ?_, ?_⟩
    · have hsh := hb.count.2.1
      change d.content.Fits
      cases hk : d.content with
      | text s =>
        rw [hk] at hcon
        exact ⟨hcon.1, by have := hcon.2; omega⟩
      | shared j =>
        rw [hk] at hcon
        show j < 2 ^ 32
        have : j < b.shared.length := hcon
        omega
      | bool x => trivial
      | rk w => rw [hk] at hcon; exact hcon
      | real w => rw [hk] at hcon; exact hcon
    · cases hk : d.content <;> simp [BCell.grid, hk, Content.ids]
    · intro j hj
      have hj' : d.content = .shared j := hj
      rw [hj'] at hcon
      exact hcon

/-- C85.  The same for a written XLSB workbook. -/
theorem C85_written_xlsb_full {A D : Type} (env : Env) (lib : Lib A D) (search : Str → Option (Str → Bool))
    (reMatch : Str → Str → Py Bool) (toInt : Str → Option Int) (pieces : Str → List Str) (hpc : Buffered pieces)
    (a : FileArgs D) (k t : Nat) (hk : a.iter.skipRows = k) (ht : a.iter.takeRows = t) (ha : a.table.Sensible)
    (o : ConcatOpts) (ho : o = concatOpts a.conflict a.formats a.precision)
    (b : BBook) (hb : b.Ok fun _ => false) (name : Str) (rows : List (List BCell)) (hs : b.Selects a.iter.sheet name rows)
    (hc : ∀ s ∈ b.sheets, ∀ row ∈ s.2, ∀ c ∈ row, c.Ok b)
    (z : Archive) (hz : ∀ e ∈ b.entries, e ∈ z) (hnd : (z.map (·.1)).Nodup) (hx : workbookXml ∉ z.map (·.1)) (H : HGrid)
    (hH : H = (b.held a.nulls.asks rows).shownXlsb a.nulls.asks k t a.iter.keepEmpty a.iter.skipCols)
    (hdata : H.flatten ≠ [] → H.DataOrEnd env search reMatch a.table o) :
    readArchive env lib search reMatch toInt pieces a z = H.outcome env lib search reMatch a.table o := by
  obtain ⟨i, hi, hsel⟩ := hs
  have hrows := hc _ (List.mem_of_getElem? hi)
  obtain ⟨l, h1, h2⟩ := styles_writtenB b _ hb
  rw [← heldGrid_written b rows hrows _ l h2] at hH
  refine C85_xlsb_full env lib search reMatch toInt pieces a k t hk ht ha z (b.file (xlPrefix ++ sheetTargetB i) rows) ?_
    o ho l b.shared _ (stores_written b _ hb _ name rows i hi hsel hrows l h1) H hH hdata
  have part : ∀ n bs, (n, bs) ∈ b.entries → z.Has n bs := fun n bs hm => has_of_nodup hnd (hz _ hm)
  refine ⟨hx, ⟨b.relsDoc, ⟨_, part _ _ (by simp [BBook.entries]), xmlBytes_isXml hpc (relsDoc_treeB b)⟩, relsComplete_writtenB b, rfl⟩,
    part _ _ (by simp [BBook.entries, BBook.file]), ?_, ?_, ?_⟩
  · intro d hd
    simp only [BBook.file, Option.some.injEq] at hd
    subst hd
    exact part _ _ (by simp [BBook.entries])
  · intro d hd
    simp only [BBook.file, Option.some.injEq] at hd
    subst hd
    exact part _ _ (by simp [BBook.entries])
  · intro n d hd
    simp only [BBook.file] at hd
    split at hd
    · rename_i hn
      simp only [Option.some.injEq] at hd
      subst hd hn
      refine part _ _ (List.mem_append_right _ (List.mem_map.mpr ⟨((name, rows), i), ?_, rfl⟩))
      rw [List.mem_iff_getElem?]
      exact ⟨i, by simp [List.getElem?_zipIdx, hi]⟩
    · cases hd

section
variable {env : Env} {toInt : Str → Option Int} {isNull : Str → Bool} {b : DBook}

theorem DBook.Ok.readable (ht : ∀ n, toInt (pyStr n) = some (n : Int)) (hb : b.Ok isNull) : b.xlsx.Readable toInt where
  names := by simpa [DBook.xlsx, List.map_map, Function.comp_def] using hb.names
  name := by
    intro s hs
    obtain ⟨p, hp, rfl⟩ := List.mem_map.mp hs
    exact (hb.name p hp).1
  shared := fun s hs => (hb.shared s hs).1
  codes := hb.codes
  code := fun p hp => (hb.code p hp).1
  ints := fun n _ => ht n

theorem held_xlsx (he : env.pyFloat = pyFloatText) (hb : b.Ok isNull) (rows : List (List DCell))
    (hc : ∀ row ∈ rows, ∀ c ∈ row, c.Ok isNull b) :
    b.xlsx.held env isNull (rows.map (List.map DCell.xlsx)) = b.held rows := by
  unfold WBook.held TGrid.held gridOf DBook.held
  have hz : (rows.map (List.map DCell.xlsx)).zipIdx = rows.zipIdx.map fun p => (p.1.map DCell.xlsx, p.2) := by
    rw [List.zipIdx_map]
    rfl
  rw [hz, List.map_map, List.map_map]
  conv_rhs => rw [← List.zipIdx_map_fst 0 rows]
  rw [List.map_map]
  refine List.map_congr_left fun p hp => ?_
  have hrow : p.1 ∈ rows := by
    have := List.mem_map_of_mem (f := Prod.fst) hp
    rwa [List.zipIdx_map_fst] at this
  have htexts : b.xlsx.strings isNull = b.shared.map some := by
    unfold WBook.strings
    refine List.map_congr_left fun s hs => ?_
    obtain ⟨h1, -, h3, h4⟩ := hb.shared s hs
    rw [h3, h4]
    simp [h1.1]
  have key : ∀ c ∈ p.1, ∀ t : TCell, t = { col := c.xlsx.col, digits := rowDigits p.2, style := c.xlsx.style, content := c.xlsx.content } →
      t.passed isNull = false ∧ t.held env b.xlsx.classes (b.xlsx.strings isNull) = some (some (b.value c)) ∧ t.col = c.col ∧
      t.kind b.xlsx.classes = (match c.content with
        | .shared _ => 0x11
        | .number _ _ => if b.dated c.style then 0x24 else 0x20) := by
    intro c hcm t htt
    have hcc := (hc _ hrow c hcm).content
    obtain ⟨col, style, content⟩ := c
    subst htt
    cases content with
    | number w d =>
      obtain ⟨h1, h2, h3, h4, h5, h6⟩ := hcc
      have hs := pyStrip_of_num _ d.text_num
      refine ⟨?_, ?_, rfl, ?_⟩
      · simp only [TCell.passed, DCell.xlsx, hs]
        simp [decimal_text_ne d h3, h5]
      · simp only [TCell.held, TCell.cls, DCell.xlsx, Option.getD_some, h6, DBook.value]
        rw [he, DCell.Ok.number h2 h3]
        cases b.dated style <;> rfl
      · simp only [TCell.kind, TCell.cls, DCell.xlsx, Option.getD_some, h6]
        cases b.dated style <;> rfl
    | shared i =>
      refine ⟨hcc.2, ?_, rfl, rfl⟩
      simp only [TCell.held, DCell.xlsx, htexts, DBook.value]
      rw [List.getElem?_map, List.getElem?_eq_getElem hcc.1, List.getD_eq_getElem _ _ hcc.1]
      rfl
  simp only [Function.comp_apply, List.map_map, rowHeld]
  rw [List.filter_eq_self.mpr, List.filterMap_map]
  · rw [← List.filterMap_eq_map]
    refine List.filterMap_congr fun c hcm => ?_
    obtain ⟨-, h2, h3, h4⟩ := key c hcm _ rfl
    simp only [Function.comp_apply]
    rw [h2, h4]
    rfl
  · intro t ht
    obtain ⟨c, hcm, rfl⟩ := List.mem_map.mp ht
    have := (key c hcm _ rfl).1
    simp only [Function.comp_apply]
    rw [this]
    rfl

/-- The tag of a number in XLSB in place of that in XLSX. -/
def realTag (n : Nat) : Nat := if n = 0x20 then 0x28 else if n = 0x28 then 0x20 else n

theorem realTag_injective : Function.Injective realTag := by
  intro x y h
  unfold realTag at h
  split_ifs at h <;> omega

theorem held_xlsb (asks : Str → Bool) (rows : List (List DCell)) :
    b.xlsb.held asks (rows.map (List.map DCell.xlsb)) = (b.held rows).relabel realTag := by
  unfold BBook.held DBook.held HGrid.relabel
  rw [List.map_map, List.map_map]
  refine List.map_congr_left fun row _ => ?_
  have hf : (row.map DCell.xlsb).filter (fun c => !c.blank asks) = row.map DCell.xlsb := by
    refine List.filter_eq_self.mpr fun c hc => ?_
    obtain ⟨c, -, rfl⟩ := List.mem_map.mp hc
    obtain ⟨col, style, content⟩ := c
    cases content <;> rfl
  simp only [Function.comp_apply]
  rw [hf, List.map_map, List.map_map]
  refine List.map_congr_left fun c _ => ?_
  obtain ⟨col, style, content⟩ := c
  cases content with
  | number w d =>
    refine Prod.ext rfl (Prod.ext ?_ rfl)
    simp only [Function.comp_apply, DCell.xlsb, Content.tag, DBook.dated]
    by_cases hd : b.xlsb.dated style = true <;> simp [hd, realTag]
  | shared i => rfl

end

/-- C88 with any conflict resolution.  One workbook of numbers, dates and shared strings, saved as XLSX and as XLSB, is
read as the same table, or with the same error: the outcome of the cells in the rows shown. -/
theorem C88_full {A D : Type} (env : Env) (he : env.pyFloat = pyFloatText) (hi : env.pyInt = pyIntText)
    (toInt : Str → Option Int) (hti : ∀ s n, pyIntText s = some n → toInt s = some (n : Int)) (lib : Lib A D)
    (search : Str → Option (Str → Bool)) (reMatch : Str → Str → Py Bool) (pieces : Str → List Str) (hpc : Buffered pieces)
    (a : FileArgs D) (k t : Nat) (hk : a.iter.skipRows = k) (ht : a.iter.takeRows = t) (ha : a.table.Sensible)
    (isNull : Str → Bool) (hnull : ∀ s, isNull s = (decide (s ∈ errorTexts) || a.nulls.asks s))
    (o : ConcatOpts) (ho : o = concatOpts a.conflict a.formats a.precision)
    (b : DBook) (hb : b.Ok isNull) (name : Str) (rows : List (List DCell)) (hs : b.Selects a.iter.sheet name rows)
    (zx zb : Archive) (hzx : ∀ e ∈ b.xlsx.entries, e ∈ zx) (hnx : (zx.map (·.1)).Nodup)
    (hzb : ∀ e ∈ b.xlsb.entries, e ∈ zb) (hnb : (zb.map (·.1)).Nodup) (hx : workbookXml ∉ zb.map (·.1)) (H : HGrid)
    (hHx : H = xlsxRows k t a.iter.keepEmpty ((b.held rows).without a.iter.skipCols))
    (hHb : H = xlsbRows k t a.iter.keepEmpty ((b.held rows).without a.iter.skipCols))
    (hdata : H.flatten ≠ [] → H.DataOrEnd env search reMatch a.table o) :
    readArchive env lib search reMatch toInt pieces a zx = H.outcome env lib search reMatch a.table o ∧
    readArchive env lib search reMatch toInt pieces a zb = H.outcome env lib search reMatch a.table o := by
  obtain ⟨i, hi', hsel⟩ := hs
  have hrows := hb.cells _ (List.mem_of_getElem? hi')
  have hle : ∀ s, isNull s = false → a.nulls.asks s = false := by
    intro s h
    rw [hnull s] at h
    exact (Bool.or_eq_false_iff.mp h).2
  constructor
  · refine C85_written_full env lib search reMatch toInt pieces hpc a k t hk ht ha isNull hnull o ho b.xlsx
      (hb.readable fun n => hti _ _ (C87_shared_number n)) name (rows.map (List.map DCell.xlsx))
      ⟨i, by simp [DBook.xlsx, hi'], hsel⟩ ?_ zx hzx hnx H ?_ hdata
    · intro s hs row hrow c hc
      obtain ⟨p, hp, rfl⟩ := List.mem_map.mp hs
      obtain ⟨r, hr, rfl⟩ := List.mem_map.mp hrow
      obtain ⟨d, hd, rfl⟩ := List.mem_map.mp hc
      have := (hb.cells p hp r hr d hd).xlsx he hi hb
      exact ⟨this.text, this.style, fun i h => ⟨(this.index i h).1, (this.index i h).2.1, (this.index i h).2.2.1⟩, this.number⟩
    · rw [held_xlsx he hb rows hrows, hHx]
      rfl
  · rw [← relabel_outcome realTag_injective (by decide)]
    have hok := hb.xlsb hle
    refine C85_written_xlsb_full env lib search reMatch toInt pieces hpc a k t hk ht ha o ho b.xlsb
      { hok with shared := fun s hs => ⟨(hok.shared s hs).1, rfl⟩ } name
      (rows.map (List.map DCell.xlsb)) ⟨i, by simp [DBook.xlsb, hi'], hsel⟩ ?_ zb hzb hnb hx (H.relabel realTag) ?_ ?_
    · intro s hs row hrow c hc
      obtain ⟨p, hp, rfl⟩ := List.mem_map.mp hs
      obtain ⟨r, hr, rfl⟩ := List.mem_map.mp hrow
      obtain ⟨d, hd, rfl⟩ := List.mem_map.mp hc
      exact (hb.cells p hp r hr d hd).xlsb
    · rw [held_xlsb, hHb, ← relabel_xlsbRows, ← relabel_without]
      unfold HGrid.shownXlsb
      rw [keepFirst_all, List.take_append_drop]
      intro r hr c hc
      have hr := List.mem_of_mem_drop hr
      unfold HGrid.without HGrid.relabel DBook.held at hr
      obtain ⟨r1, hr1, rfl⟩ := List.mem_map.mp hr
      obtain ⟨r2, hr2, rfl⟩ := List.mem_map.mp hr1
      obtain ⟨r3, hr3, rfl⟩ := List.mem_map.mp hr2
      obtain ⟨c1, hc1, rfl⟩ := List.mem_map.mp (List.mem_filter.mp hc).1
      obtain ⟨d, hd, rfl⟩ := List.mem_map.mp hc1
      have hcon := (hrows _ hr3 d hd).content
      obtain ⟨col, style, content⟩ := d
      cases content with
      | number w d => simp only [nullShared, DBook.value]; cases b.dated style <;> rfl
      | shared j =>
        simp only [nullShared, DBook.value, List.getD_eq_getElem _ _ hcon.1]
        have := hle _ (hb.shared _ (List.getElem_mem hcon.1)).2.2.2
        simp [this]
    · intro h
      rw [relabel_dataOrEnd realTag_injective]
      exact hdata fun h0 => h ((relabel_flatten H).mpr h0)

/-- A workbook with null shared strings, and one with a date beside shared strings in a column. -/
def exNullBook : WBook := { exWBook with shared := [['a'], "#REF!".toList] }
@[inherit_doc exNullBook] def exClashBook : DBook where
  sheets := [(['S'], [[⟨0, 0, .shared 0⟩], [⟨0, 1, .number 0x40E5F90000000000 ⟨none, [4, 5, 0, 0, 0], false, [], none⟩⟩]])]
  shared := [['é', ' ', 'x']]
  formats := [0, 14]

def exReadBoth (c : Str) (z : Archive) : Py (List Fetched) :=
  (readArchive textEnv exLib (fun _ => none) (fun _ _ => .ok false) exInt (fun s => [s]) { conflict := c } z).map (·.arrays)

example : exReadZip exNullBook.entries { skipCols := [] } =
      .ok [.arr ⟨.utf8, [none, none, some (.str ['w'])]⟩,
        .arr ⟨.ts, [some (.ts (-2208988800000)), none, none]⟩,
        .arr ⟨.i8, [none, none, some (.i8 7)]⟩] := by
  decide +kernel

example : exReadBoth strTemporal exClashBook.xlsx.entries = .error .arrowNotImplemented ∧
    exReadBoth strTemporal exClashBook.xlsb.entries = .error .arrowNotImplemented ∧
    exReadBoth strNo exClashBook.xlsx.entries = exReadBoth strNo exClashBook.xlsb.entries ∧
    exReadBoth strNo exClashBook.xlsx.entries ≠ .error .arrowNotImplemented := by
  decide +kernel

end Rxls
