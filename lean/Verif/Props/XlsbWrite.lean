import Verif.Props.XlsxWrite
import Verif.Props.XlsbParts
import Verif.Spec.XlsbWrite

/-! # Property C85 for the XLSB workbooks of a reference writer -/

namespace Rxls

theorem wide_length (s : Str) (h : (utf16 s).length < 2 ^ 20) : (wideString s).length < 2 ^ 22 := by
  unfold wideString
  rw [List.length_append, utf16LE_length]
  simp only [le32, List.length_cons, List.length_nil]
  omega

/-- A stream of records that fit is read back. -/
theorem binBytes_ok {rs : List Record} (h : ∀ r ∈ rs, Encodable r) : writeAll rs [] = .ok (binBytes rs) := by
  obtain ⟨out, h1, -⟩ := C01_stream_roundtrip rs h
  unfold binBytes
  rw [h1]

theorem scan_binBytes {rs : List Record} (h : ∀ r ∈ rs, Encodable r) (ids : List Nat) (hi : ids ≠ []) :
    scanBiff (some ids) (binBytes rs) = rs.filter fun r => decide (r.recId ∈ ids) := by
  rw [C04_only_filter]
  have := C01_stream_roundtrip_append rs _ [] (binBytes_ok h)
  rw [List.append_nil] at this
  rw [this, show scanBiff none [] = [] from rfl, List.append_nil]
  apply List.filter_congr
  intro r _
  simp [hi]

theorem find_unique {α : Type} (l : List α) (p : α → Bool) (x : α) (hx : x ∈ l) (hp : p x = true)
    (h : ∀ z ∈ l, p z = true → z = x) : l.find? p = some x := by
  cases hf : l.find? p with
  | none => exact absurd hp (List.find?_eq_none.mp hf x hx)
  | some y => rw [h y (List.mem_of_find?_eq_some hf) (List.find?_some hf)]

theorem select_nth (l : List (Str × Str)) (h : (l.map (·.1)).Nodup) (arg : SheetArg) (name path : Str) (i : Nat)
    (hi : l[i]? = some (name, path)) (ha : arg = .index i ∨ arg = .name name) : selectSheet l arg = .ok path := by
  rcases ha with rfl | rfl
  · have hl : i < l.length := (List.getElem?_eq_some_iff.mp hi).1
    simp only [selectSheet]
    rw [if_pos (by omega)]
    simp only [Int.toNat_natCast, hi]
  · simp only [selectSheet, find_nodup _ h i _ _ hi]

/-! ## The records fit -/

theorem relId_units (i : Nat) : (utf16 (relIdOf i)).length = (relIdOf i).length := by
  have h : ∀ s : Str, (∀ c ∈ s, c.toNat < 0x10000) → (utf16 s).length = s.length := by
    intro s
    induction s with
    | nil => intro _; rfl
    | cons c s ih =>
      intro h
      have h1 := h c (by simp)
      have h2 := ih fun d hd => h d (by simp [hd])
      unfold utf16 at *
      rw [List.flatMap_cons, List.length_append, h2, units16, if_pos h1]
      simp
      omega
  refine h _ fun c hc => ?_
  rcases List.mem_append.mp hc with h | h
  · simp only [List.mem_cons, List.not_mem_nil, or_false] at h
    rcases h with rfl | rfl | rfl <;> decide
  · have := pyStr_digit _ c h
    omega

theorem relId_short (i : Nat) (h : i < 2 ^ 32) : (utf16 (relIdOf i)).length < 2 ^ 20 := by
  rw [relId_units]
  unfold relIdOf pyStr
  rw [List.length_append]
  have : (Nat.toDigits 10 (i + 1)).length ≤ 10 := Nat.toDigits_length 10 (i + 1) 10 (by omega) (by omega)
  simp only [List.length_cons, List.length_nil]
  omega

theorem workbook_fits (b : BBook) (isNull : Str → Bool) (hb : b.Ok isNull) : ∀ r ∈ b.workbookRecs, Encodable r := by
  intro r hr
  simp only [BBook.workbookRecs, List.mem_append, List.mem_cons, List.not_mem_nil, or_false, List.mem_map] at hr
  rcases hr with (((rfl | rfl) | ⟨e, he, rfl⟩) | rfl | rfl) <;> try decide
  obtain ⟨⟨⟨n, rows⟩, i⟩, hp, rfl⟩ := List.mem_map.mp he
  refine ⟨by show EncodableId 412; decide, ?_⟩
  have h1 := wide_length n (hb.name _ (List.fst_mem_of_mem_zipIdx hp)).2
  have h2 := wide_length (relIdOf i) (relId_short i ?_)
  · simp only [SheetEntry.record, List.length_append, le32, List.length_cons, List.length_nil] at *
    omega
  · have := List.snd_lt_of_mem_zipIdx hp
    have := hb.count.1
    omega

theorem shared_fits (b : BBook) (isNull : Str → Bool) (hb : b.Ok isNull) : ∀ r ∈ b.sharedRecs, Encodable r := by
  intro r hr
  simp only [BBook.sharedRecs, List.mem_append, List.mem_cons, List.not_mem_nil, or_false, List.mem_map] at hr
  rcases hr with ((rfl | ⟨s, hs, rfl⟩) | rfl)
  · exact ⟨by show EncodableId 415; decide, by simp [le32]⟩
  · have h1 := wide_length s (hb.shared s hs).1.2
    refine ⟨by show EncodableId 19; decide, ?_⟩
    simp only [sstItem, List.length_cons, List.append_nil]
    omega
  · decide

theorem styles_fits (b : BBook) (isNull : Str → Bool) (hb : b.Ok isNull) : ∀ r ∈ b.stylesRecs, Encodable r := by
  intro r hr
  simp only [BBook.stylesRecs, List.mem_append, List.mem_cons, List.not_mem_nil, or_false, List.mem_map] at hr
  rcases hr with ((((rfl | ⟨p, hp, rfl⟩) | rfl | rfl) | ⟨x, hx, rfl⟩) | rfl)
  · exact ⟨by show EncodableId 1255; decide, by simp [le32]⟩
  · have h1 := wide_length p.2 (by have := (hb.code p hp).2.1; omega)
    refine ⟨by show EncodableId 44; decide, ?_⟩
    simp only [fmtRecord, le16, List.length_cons, List.length_append, List.length_nil]
    omega
  · decide
  · exact ⟨by show EncodableId 1257; decide, by simp [le32]⟩
  · refine ⟨by show EncodableId 47; decide, ?_⟩
    simp only [BBook.xfs, List.mem_cons, List.mem_map] at hx
    rcases hx with rfl | ⟨n, -, rfl⟩ <;> simp [Xf.record, le16]
  · decide

theorem sheet_fits (b : BBook) (rows : List (List BCell)) (hc : ∀ row ∈ rows, ∀ c ∈ row, c.Ok b) :
    ∀ r ∈ binSheet rows, Encodable r := by
  intro r hr
  simp only [binSheet, Grid.records, List.mem_append, List.mem_cons, List.not_mem_nil, or_false, List.mem_map, List.mem_flatMap] at hr
  rcases hr with (((rfl | rfl) | ⟨p, hp, rfl | ⟨c, hcm, rfl⟩⟩) | rfl | rfl) <;> try decide
  · exact ⟨by show EncodableId 0; decide, by simp [le32]⟩
  · have hrow := List.fst_mem_of_mem_zipIdx hp
    obtain ⟨row, h1, h2⟩ := List.mem_map.mp hrow
    rw [← h2] at hcm
    obtain ⟨d, hd, rfl⟩ := List.mem_map.mp hcm
    have ok := hc row h1 d hd
    have hcon := ok.content
    cases hk : d.content with
    | text s =>
      rw [hk] at hcon
      have h1 := wide_length s hcon.2
      refine ⟨by show EncodableId _; simp only [BCell.grid, GCell.record, hk]; exact (by decide : EncodableId 6), ?_⟩
      simp only [BCell.grid, GCell.record, cellPayload, hk, Content.bytes, le32, le16, List.length_append, List.length_cons,
        List.length_nil]
      omega
    | _ =>
      refine ⟨by show EncodableId _; simp [BCell.grid, GCell.record, hk, Content.ids, EncodableId], ?_⟩
      simp [BCell.grid, GCell.record, cellPayload, hk, Content.bytes, le32, le64, le16]

/-! ## The file -/

theorem relationships_writtenB (b : BBook) :
    relationships b.relsDoc = b.sheets.zipIdx.map fun p => ⟨relIdOf p.2, worksheetType, sheetTargetB p.2⟩ := by
  unfold relationships BBook.relsDoc
  rw [filterMap_elem _ (fun _ => rfl), ← flatMap_one]
  refine (filterMap_elems _ _ _ _ fun x => ?_)
  rw [filterMap_elem _ (fun _ => rfl)]
  have : lastSegment worksheetUri = worksheetType := by decide +kernel
  simp [attrGet, attId, attType, attTarget, this]

theorem relsComplete_writtenB (b : BBook) : RelsComplete b.relsDoc := by
  intro t a hm ht
  subst ht
  simp only [BBook.relsDoc, elem, List.mem_cons, List.mem_append, List.mem_flatMap, List.not_mem_nil, or_false, Xml.start.injEq,
    reduceCtorEq, List.nil_append] at hm
  rcases hm with ⟨h, -⟩ | ⟨p, -, -, rfl⟩
  · exact absurd h (by decide)
  · simp [attrGet, attId, attType, attTarget]

theorem relsDoc_treeB (b : BBook) : XmlTree b.relsDoc := by
  obtain ⟨-, -, -, -, -, -, -, -, -, t1, -, -, -, -, -, -, -, -, -, -, -, -, -, -, -, -, t2, a1, a2, a3⟩ := name_tags
  refine tree_elem t1 attsOk_nil (tidy_flatMap _ _ fun p _ => tidy_elem t2
    ⟨by simp only [List.map_cons, List.map_nil]; decide, ?_⟩ tidy_nil)
  intro a ha
  simp only [List.mem_cons, List.not_mem_nil, or_false] at ha
  rcases ha with rfl | rfl | rfl
  · exact ⟨a1, chars_relId _⟩
  · exact ⟨a2, chars_of _ (by decide +kernel)⟩
  · exact ⟨a3, chars_append (chars_append (chars_of _ (by decide)) (chars_pyStr _)) (chars_of _ (by decide))⟩

/-- The file an application means. -/
def BBook.file (b : BBook) (path : Str) (rows : List (List BCell)) : XlsbFile where
  rels := relationships b.relsDoc
  workbook := binBytes b.workbookRecs
  shared := some (binBytes b.sharedRecs)
  styles := some (binBytes b.stylesRecs)
  parts := fun n => if n = path then some (binBytes (binSheet rows)) else none

theorem sheets_writtenB (b : BBook) (isNull : Str → Bool) (hb : b.Ok isNull) :
    xlsbSheets (relationships b.relsDoc) (binBytes b.workbookRecs) =
      .ok (b.sheets.zipIdx.map fun p => (p.1.1, xlPrefix ++ sheetTargetB p.2)) := by
  have hscan : scanBiff (some [412]) (binBytes b.workbookRecs) = b.bundles.map SheetEntry.record := by
    rw [scan_binBytes (workbook_fits b isNull hb) _ (by simp)]
    unfold BBook.workbookRecs
    have : (b.bundles.map SheetEntry.record).filter (fun r => decide (r.recId ∈ [412])) = b.bundles.map SheetEntry.record := by
      rw [List.filter_eq_self]
      intro r hr
      obtain ⟨e, -, rfl⟩ := List.mem_map.mp hr
      simp [SheetEntry.record]
    rw [List.filter_append, List.filter_append, this]
    simp
  have h := C52_xlsb_sheets (relationships b.relsDoc) _ b.bundles
    (fun r => ['w', 'o', 'r', 'k', 's', 'h', 'e', 'e', 't', 's', '/', 's', 'h', 'e', 'e', 't'] ++ r.drop 3 ++ ['.', 'b', 'i', 'n'])
    hscan ?_ ?_ ?_
  · rw [h]
    simp only [BBook.bundles, List.map_map]
    rfl
  · intro e he
    obtain ⟨⟨⟨n, rows⟩, i⟩, hp, rfl⟩ := List.mem_map.mp he
    have hi := List.snd_lt_of_mem_zipIdx hp
    have hc := hb.count.1
    have hn := hb.name _ (List.fst_mem_of_mem_zipIdx hp)
    refine ⟨by simp, by simp at *; omega, ?_, hn.1, ?_, ?_⟩
    · intro c t hct
      have : c = 'r' := by
        simp only [relIdOf, List.cons_append, List.cons.injEq] at hct
        exact hct.1.symm
      subst this
      decide
    · have := relId_short i (by simp at hi; omega)
      simp only at *
      omega
    · have := hn.2
      simp only at *
      omega
  · intro e he
    obtain ⟨p, hp, rfl⟩ := List.mem_map.mp he
    rw [relationships_writtenB]
    have : (b.sheets.zipIdx.map fun p => (⟨relIdOf p.2, worksheetType, sheetTargetB p.2⟩ : Relationship)).find?
        (fun x => x.id = relIdOf p.2) = some ⟨relIdOf p.2, worksheetType, sheetTargetB p.2⟩ := by
      refine find_unique _ _ _ (List.mem_map.mpr ⟨p, hp, rfl⟩) (by simp) fun z hz hzi => ?_
      obtain ⟨q, -, rfl⟩ := List.mem_map.mp hz
      simp only [decide_eq_true_eq] at hzi
      have := pyStr_inj (List.append_cancel_left hzi)
      rw [show q.2 = p.2 by omega]
    simp only [this]
    rfl
  · simp only [BBook.bundles, List.map_map]
    have : ((fun x : SheetEntry => x.name) ∘ fun p : (Str × List (List BCell)) × Nat => (⟨0, p.2 + 1, relIdOf p.2, p.1.1⟩ : SheetEntry)) =
      (fun s : Str × List (List BCell) => s.1) ∘ (·.1) := rfl
    rw [this, ← List.map_map, List.zipIdx_map_fst]
    exact hb.names

theorem filter_head {rs : List Record} {ids : List Nat} (h : ∀ r ∈ rs, r.recId ∈ ids) :
    rs.filter (fun r => decide (r.recId ∈ ids)) = rs := by
  rw [List.filter_eq_self]
  intro r hr
  simpa using h r hr

theorem filter_none {rs : List Record} {ids : List Nat} (h : ∀ r ∈ rs, r.recId ∉ ids) :
    rs.filter (fun r => decide (r.recId ∈ ids)) = [] := by
  rw [List.filter_eq_nil_iff]
  intro r hr
  simpa using h r hr

/-- The cell formats found in the written styles. -/
theorem styles_writtenB (b : BBook) (isNull : Str → Bool) (hb : b.Ok isNull) :
    ∃ l, xlsbStyles (binBytes b.stylesRecs) = .ok l ∧ ∀ i < b.formats.length, (le16 i ++ [0] ∈ l ↔ b.dated i = true) := by
  have m47 : ∀ r ∈ b.codes.map fmtRecord, r.recId ∉ [47] := by
    intro r hr
    obtain ⟨e, -, rfl⟩ := List.mem_map.mp hr
    simp [fmtRecord]
  have m44 : ∀ r ∈ b.xfs.map Xf.record, r.recId ∉ [44] := by
    intro r hr
    obtain ⟨e, -, rfl⟩ := List.mem_map.mp hr
    simp [Xf.record]
  have n47 : ∀ r ∈ b.xfs.map Xf.record, r.recId ∈ [47] := by
    intro r hr
    obtain ⟨e, -, rfl⟩ := List.mem_map.mp hr
    simp [Xf.record]
  have n44 : ∀ r ∈ b.codes.map fmtRecord, r.recId ∈ [44] := by
    intro r hr
    obtain ⟨e, -, rfl⟩ := List.mem_map.mp hr
    simp [fmtRecord]
  have g47 : scanBiff (some [47]) (binBytes b.stylesRecs) = b.xfs.map Xf.record := by
    rw [scan_binBytes (styles_fits b isNull hb) _ (by simp)]
    unfold BBook.stylesRecs
    rw [List.filter_append, List.filter_append, List.filter_append, List.filter_append, filter_none m47, filter_head n47]
    simp
  have g44 : scanBiff (some [44]) (binBytes b.stylesRecs) = b.codes.map fmtRecord := by
    rw [scan_binBytes (styles_fits b isNull hb) _ (by simp)]
    unfold BBook.stylesRecs
    rw [List.filter_append, List.filter_append, List.filter_append, List.filter_append, filter_none m44, filter_head n44]
    simp
  have glen : b.xfs.length ≤ 65536 := by
    have := hb.count.2.2
    simp [BBook.xfs]
    omega
  have gx : ∀ x ∈ b.xfs, x.parent < 65536 ∧ x.fmt < 256 := by
    intro x hx
    simp only [BBook.xfs, List.mem_cons, List.mem_map] at hx
    rcases hx with rfl | ⟨n, hn, rfl⟩
    · simp
    · exact ⟨by simp, hb.formats n hn⟩
  obtain ⟨l, h1, h2⟩ := C51_classification_partial (binBytes b.stylesRecs) b.xfs b.codes g47 g44 glen gx
    (fun p hp => ⟨by have := (hb.code p hp).1; omega, (hb.code p hp).2.1, (hb.code p hp).2.2.1⟩) hb.codes
    (fun p hp => (hb.code p hp).2.2.2)
  refine ⟨l, h1, fun i hi => ?_⟩
  have hf : (b.xfs.filter fun x => x.parent ≠ 0xFFFF) = b.formats.map fun n => (⟨0, n, List.replicate 12 0⟩ : Xf) := by
    unfold BBook.xfs
    rw [List.filter_cons_of_neg (by simp), List.filter_eq_self]
    intro x hx
    obtain ⟨n, -, rfl⟩ := List.mem_map.mp hx
    simp
  have := h2 i ⟨0, b.formats[i], List.replicate 12 0⟩ (by rw [hf]; simp [hi])
  rw [this]
  unfold BBook.dated
  rw [List.getElem?_eq_getElem hi]
  simp only [Bool.or_eq_true, decide_eq_true_eq, List.any_eq_true, Bool.and_eq_true]
  constructor
  · rintro (h | ⟨code, h3, h4⟩)
    · exact .inl h
    · exact .inr ⟨_, h3, rfl, h4⟩
  · rintro (h | ⟨⟨n, code⟩, h3, h4, h5⟩)
    · exact .inl h
    · exact .inr ⟨code, h4 ▸ h3, h5⟩

theorem grid_cell (b : BBook) (c : BCell) (h : c.Ok b) (isNull : Str → Bool) (l : List Bytes)
    (hl : ∀ i < b.formats.length, (le16 i ++ [0] ∈ l ↔ b.dated i = true)) :
    c.grid.value l b.shared = b.value c ∧ c.grid.blank isNull = c.blank isNull := by
  have hs := hl _ h.style
  refine ⟨?_, rfl⟩
  unfold GCell.value BBook.value BCell.grid
  simp only
  cases c.content with
  | rk w => simp only [hs]
  | real w => simp only [hs]
  | _ => rfl

theorem grid_written (b : BBook) (rows : List (List BCell)) (hc : ∀ row ∈ rows, ∀ c ∈ row, c.Ok b) (isNull : Str → Bool)
    (l : List Bytes) (hl : ∀ i < b.formats.length, (le16 i ++ [0] ∈ l ↔ b.dated i = true)) :
    Grid.values l b.shared isNull (rows.map (List.map BCell.grid)) = b.values isNull rows := by
  unfold Grid.values BBook.values
  rw [List.map_map]
  refine List.map_congr_left fun row hrow => ?_
  simp only [Function.comp, List.filter_map, List.map_map]
  refine List.map_congr_left fun c hcm => ?_
  simp only [Function.comp]
  rw [(grid_cell b c (hc row hrow c (List.mem_filter.mp hcm).1) isNull l hl).1]
  rfl

theorem inline_written (rows : List (List BCell)) : Grid.inline (rows.map (List.map BCell.grid)) = inlineOf rows := by
  funext k
  unfold Grid.inline inlineOf
  rw [List.all_map]
  congr 1
  funext row
  simp only [Function.comp, List.all_map]
  rfl

theorem holds_written (b : BBook) (isNull : Str → Bool) (hb : b.Ok isNull) (arg : SheetArg) (name : Str)
    (rows : List (List BCell)) (i : Nat) (hi : b.sheets[i]? = some (name, rows)) (ha : arg = .index i ∨ arg = .name name)
    (hc : ∀ row ∈ rows, ∀ c ∈ row, c.Ok b) (hv : ∃ row ∈ rows, ∃ c ∈ row, c.blank isNull = false) (l : List Bytes)
    (hl : xlsbStyles (binBytes b.stylesRecs) = .ok l) :
    (b.file (xlPrefix ++ sheetTargetB i) rows).Holds arg isNull l b.shared (rows.map (List.map BCell.grid)) := by
  refine ⟨⟨_, _, _, binSheet rows, fun i => le32 i ++ List.replicate 13 0, [⟨402, []⟩], sheets_writtenB b isNull hb,
    select_nth _ ?_ arg name _ i ?_ ha, if_pos rfl, binBytes_ok (sheet_fits b rows hc), ?_, .inr ⟨_, [], rfl, rfl⟩, by simp⟩,
    ⟨_, rfl, hl⟩, ⟨_, b.shared.map fun s => (0, s, []), rfl, ?_, ?_, ?_, ?_⟩, ?_, ?_⟩
  · rw [List.map_map]
    have : ((fun x : Str × Str => x.1) ∘ fun p : (Str × List (List BCell)) × Nat => (p.1.1, xlPrefix ++ sheetTargetB p.2)) =
      (fun s : Str × List (List BCell) => s.1) ∘ (·.1) := rfl
    rw [this, ← List.map_map, List.zipIdx_map_fst]
    exact hb.names
  · simp [List.getElem?_zipIdx, hi]
  · unfold binSheet
    rw [List.filter_append, List.filter_append, filter_head (rs := Grid.records _ _)]
    · simp [sheetIds]
    · intro r hr
      simp only [Grid.records, List.mem_flatMap, List.mem_cons, List.mem_map] at hr
      obtain ⟨p, hp, rfl | ⟨c, hcm, rfl⟩⟩ := hr
      · simp [sheetIds]
      · obtain ⟨row, h1, h2⟩ := List.mem_map.mp (List.fst_mem_of_mem_zipIdx hp)
        rw [← h2] at hcm
        obtain ⟨d, hd, rfl⟩ := List.mem_map.mp hcm
        cases hk : d.content <;> simp [GCell.record, BCell.grid, hk, Content.ids, sheetIds]
  · rw [scan_binBytes (shared_fits b isNull hb) _ (by simp)]
    unfold BBook.sharedRecs
    rw [List.filter_append, List.filter_append, filter_head (rs := List.map _ b.shared)]
    · simp
    · intro r hr
      obtain ⟨s, -, rfl⟩ := List.mem_map.mp hr
      simp [sstItem]
  · simpa using hb.count.2.1
  · intro x hx
    obtain ⟨s, hs, rfl⟩ := List.mem_map.mp hx
    have := hb.shared s hs
    exact ⟨this.1.1, by have := this.1.2; simp only; omega, this.2⟩
  · rw [List.map_map]; exact (List.map_id _).symm
  · intro row hrow c hcm
    obtain ⟨w, hw, rfl⟩ := List.mem_map.mp hrow
    obtain ⟨d, hd, rfl⟩ := List.mem_map.mp hcm
    have ok := hc w hw d hd
    have hcon := ok.content
    refine ⟨ok.col, by simp [BCell.grid, le16], ?_, ?_, ?_⟩
    · have hsh := hb.count.2.1
      change d.content.Fits
      cases hk : d.content with
      | text s =>
        rw [hk] at hcon
        exact ⟨hcon.1, by have := hcon.2; omega⟩
      | shared j =>
        rw [hk] at hcon
        show j < 2 ^ 32
        have : j < b.shared.length := hcon
        omega
      | bool x => trivial
      | rk w => rw [hk] at hcon; exact hcon
      | real w => rw [hk] at hcon; exact hcon
    · cases hk : d.content <;> simp [BCell.grid, hk, Content.ids]
    · intro j hj
      have hj' : d.content = .shared j := hj
      rw [hj'] at hcon
      exact hcon
  · obtain ⟨row, h1, c, h2, h3⟩ := hv
    exact ⟨_, List.mem_map.mpr ⟨row, h1, rfl⟩, _, List.mem_map.mpr ⟨c, h2, rfl⟩, h3⟩

/-- C85.  An XLSB workbook written by an application is read back: an archive that has the entries of the workbook (and
any others, but no XLSX workbook) gives the table of the values in the sheet asked for. -/
theorem C85_written_xlsb {A D : Type} (env : Env) (lib : Lib A D) (search : Str → Option (Str → Bool))
    (reMatch : Str → Str → Py Bool) (toInt : Str → Option Int) (pieces : Str → List Str) (hpc : Buffered pieces)
    (a : FileArgs D) (k t : Nat) (hk : a.iter.skipRows = k) (ht : a.iter.takeRows = t) (ha : a.table.Sensible)
    (o : ConcatOpts) (ho : o = concatOpts a.conflict a.formats a.precision)
    (b : BBook) (hb : b.Ok a.nulls.asks) (name : Str) (rows : List (List BCell)) (hs : b.Selects a.iter.sheet name rows)
    (hc : ∀ s ∈ b.sheets, ∀ row ∈ s.2, ∀ c ∈ row, c.Ok b) (hv : ∃ row ∈ rows, ∃ c ∈ row, c.blank a.nulls.asks = false)
    (z : Archive) (hz : ∀ e ∈ b.entries, e ∈ z) (hnd : (z.map (·.1)).Nodup) (hx : workbookXml ∉ z.map (·.1)) (V : VGrid)
    (hV : V = (b.values a.nulls.asks rows).shownXlsb k t a.iter.keepEmpty a.iter.skipCols)
    (hres : V.Resolvable env o (inlineOf rows)) (hdata : V.flatten ≠ [] → V.HasData env search a.table o) :
    readArchive env lib search reMatch toInt pieces a z =
      if V.flatten = [] then .error .valueError else V.table env lib search reMatch a.table o := by
  obtain ⟨i, hi, hsel⟩ := hs
  have hrows := hc _ (List.mem_of_getElem? hi)
  obtain ⟨l, h1, h2⟩ := styles_writtenB b _ hb
  rw [← grid_written b rows hrows _ l h2] at hV
  rw [← inline_written] at hres
  refine C85_xlsb env lib search reMatch toInt pieces a k t hk ht ha z (b.file (xlPrefix ++ sheetTargetB i) rows) ?_
    o ho l b.shared _ (holds_written b _ hb _ name rows i hi hsel hrows hv l h1) V hV hres hdata
  have part : ∀ n bs, (n, bs) ∈ b.entries → z.Has n bs := fun n bs hm => has_of_nodup hnd (hz _ hm)
  refine ⟨hx, ⟨b.relsDoc, ⟨_, part _ _ (by simp [BBook.entries]), xmlBytes_isXml hpc (relsDoc_treeB b)⟩, relsComplete_writtenB b, rfl⟩,
    part _ _ (by simp [BBook.entries, BBook.file]), ?_, ?_, ?_⟩
  · intro d hd
    simp only [BBook.file, Option.some.injEq] at hd
    subst hd
    exact part _ _ (by simp [BBook.entries])
  · intro d hd
    simp only [BBook.file, Option.some.injEq] at hd
    subst hd
    exact part _ _ (by simp [BBook.entries])
  · intro n d hd
    simp only [BBook.file] at hd
    split at hd
    · rename_i hn
      simp only [Option.some.injEq] at hd
      subst hd hn
      refine part _ _ (List.mem_append_right _ (List.mem_map.mpr ⟨((name, rows), i), ?_, rfl⟩))
      rw [List.mem_iff_getElem?]
      exact ⟨i, by simp [List.getElem?_zipIdx, hi]⟩
    · cases hd

/-- The entries of a written workbook have different names, so the archive may consist of them alone. -/
theorem entriesB_nodup (b : BBook) : (b.entries.map (·.1)).Nodup ∧ workbookXml ∉ b.entries.map (·.1) := by
  have hpre : ∀ n ∈ b.sheets.zipIdx.map fun p => xlPrefix ++ sheetTargetB p.2,
      (xlPrefix ++ ['w', 'o', 'r', 'k', 's']).isPrefixOf n = true := by
    intro n hn
    obtain ⟨p, -, rfl⟩ := List.mem_map.mp hn
    rw [List.isPrefixOf_iff_prefix]
    exact ⟨['h', 'e', 'e', 't', 's', '/', 's', 'h', 'e', 'e', 't'] ++ pyStr (p.2 + 1) ++ ['.', 'b', 'i', 'n'], by
      simp [sheetTargetB, List.append_assoc]⟩
  have hsheet : (b.sheets.zipIdx.map fun p => xlPrefix ++ sheetTargetB p.2).Nodup := by
    have hidx : (b.sheets.zipIdx.map (·.2)).Nodup := by
      rw [List.zipIdx_map_snd]
      exact List.nodup_range'
    have : (b.sheets.zipIdx.map fun p => xlPrefix ++ sheetTargetB p.2) =
        (b.sheets.zipIdx.map (·.2)).map fun i => xlPrefix ++ sheetTargetB i := by rw [List.map_map]; rfl
    rw [this]
    refine hidx.map fun i j hij => ?_
    have h1 := List.append_cancel_left hij
    unfold sheetTargetB at h1
    have := pyStr_inj (List.append_cancel_left (List.append_cancel_right h1))
    omega
  have e : b.entries.map (·.1) = [xlsbRelsName, workbookBin, xlsbStylesName, xlsbSharedName] ++
      b.sheets.zipIdx.map fun p => xlPrefix ++ sheetTargetB p.2 := by
    unfold BBook.entries
    rw [List.map_append, List.map_map]
    rfl
  rw [e]
  refine ⟨List.nodup_append.mpr ⟨by decide, hsheet, ?_⟩, ?_⟩
  · intro n hn m hm h
    subst h
    have := hpre n hm
    simp only [List.mem_cons, List.not_mem_nil, or_false] at hn
    rcases hn with rfl | rfl | rfl | rfl <;> revert this <;> decide
  · intro h
    rcases List.mem_append.mp h with h | h
    · revert h
      decide
    · have := hpre _ h
      revert this
      decide

/-- A workbook with two sheets: a shared string, a date, a text; numbers. -/
def exBBook : BBook where
  sheets := [(['A', 'é'], [[⟨0, 0, .shared 1⟩, ⟨1, 1, .rk 6⟩], [], [⟨0, 0, .text ['w', ' ']⟩, ⟨27, 2, .rk 30⟩]]),
    (['O'], [[⟨2, 3, .real 0x404D800000000000⟩, ⟨3, 2, .bool true⟩]])]
  shared := [['a'], ['q', ' ', '€']]
  formats := [0, 14, 1, 164]
  codes := [(164, "yyyy\\-mm".toList)]

example : exReadZip exBBook.entries { skipCols := [] } =
      .ok [.arr ⟨.utf8, [some (.str ['q', ' ', '€']), some (.str ['w', ' '])]⟩,
        .arr ⟨.ts, [some (.ts (-2208988800000)), none]⟩,
        .arr ⟨.i8, [none, some (.i8 7)]⟩] ∧
    exReadZip exBBook.entries { sheet := .name ['O'] } =
      .ok [.arr ⟨.ts, [some (.ts (-2208988800000 + 58 * 86400000))]⟩, .arr ⟨.i8, [some (.i8 1)]⟩] := by
  decide +kernel

/-- It satisfies the conditions. -/
example : exBBook.Ok (fun _ => false) ∧ (∀ s ∈ exBBook.sheets, ∀ row ∈ s.2, ∀ c ∈ row, c.Ok exBBook) ∧
    exBBook.Selects (.index 1) ['O'] [[⟨2, 3, .real 0x404D800000000000⟩, ⟨3, 2, .bool true⟩]] := by
  have mark : ∀ s : Str, (match s with | [] => true | c :: _ => decide (c.toNat ≠ 0xFEFF ∧ c.toNat ≠ 0xFFFE)) = true → NoMark s := by
    rintro _ h c t rfl
    simpa using h
  refine ⟨⟨by decide +kernel, ?_, by decide +kernel, ?_, by decide +kernel, by decide +kernel, by decide +kernel⟩, ?_, ⟨1, rfl, .inl rfl⟩⟩
  · intro s hs
    simp only [exBBook, List.mem_cons, List.not_mem_nil, or_false] at hs
    rcases hs with rfl | rfl <;> exact ⟨mark _ (by decide), by decide +kernel⟩
  · intro s hs
    simp only [exBBook, List.mem_cons, List.not_mem_nil, or_false] at hs
    rcases hs with rfl | rfl <;> exact ⟨⟨mark _ (by decide), by decide +kernel⟩, rfl⟩
  · intro s hs row hrow c hc
    simp only [exBBook, List.mem_cons, List.not_mem_nil, or_false] at hs
    rcases hs with rfl | rfl <;> simp only [List.mem_cons, List.not_mem_nil, or_false] at hrow
    · rcases hrow with rfl | rfl | rfl <;> simp only [List.mem_cons, List.not_mem_nil, or_false] at hc
      · rcases hc with rfl | rfl <;> exact ⟨by decide, by decide, by decide⟩
      · rcases hc with rfl | rfl
        · exact ⟨by decide, by decide, mark _ (by decide), by decide +kernel⟩
        · exact ⟨by decide, by decide, by decide⟩
    · subst hrow
      simp only [List.mem_cons, List.not_mem_nil, or_false] at hc
      rcases hc with rfl | rfl
      · exact ⟨by decide, by decide, by decide⟩
      · exact ⟨by decide, by decide, trivial⟩

end Rxls
