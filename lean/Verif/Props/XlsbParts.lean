import Verif.Lemmas.XlsbParts
import Verif.Spec.Biff
import Mathlib.Data.List.Nodup

/-! # Properties C46, C48, C51, C52 for XLSB packages -/

namespace Rxls

/-! ## C46 -/

/-- C46 for XLSB.  The table has one entry per item, entry `i` is the text of item `i`, whatever formatting runs
follow it; the keys in `null_shared` are exactly the indices of the texts that are null. -/
theorem C46_xlsb_aligned (isNull : Str → Bool) (part : Bytes) (items : List (UInt8 × Str × Bytes))
    (hp : scanBiff (some [19]) part = items.map fun x => sstItem x.1 x.2.1 x.2.2) (hl : items.length ≤ 2 ^ 32)
    (hi : ∀ x ∈ items, NoMark x.2.1 ∧ (utf16 x.2.1).length < 2 ^ 32) :
    ∃ keys, xlsbShared isNull part = .ok (items.map fun x => some x.2.1, keys) ∧
      ∀ i x, items[i]? = some x → (le32 i ∈ keys ↔ isNull x.2.1 = true) := by
  refine ⟨_, by rw [xlsbShared, hp]; exact sharedFrom_items isNull items 0 (by omega) hi, ?_⟩
  intro i x hix
  have hil : i < items.length := (List.getElem?_eq_some_iff.1 hix).1
  rw [List.mem_map]
  constructor
  · rintro ⟨⟨y, j⟩, hm, he⟩
    obtain ⟨h1, h2⟩ := List.mem_filter.1 hm
    have hj := List.mem_zipIdx_iff_getElem?.1 h1
    have hjl : j < items.length := (List.getElem?_eq_some_iff.1 hj).1
    have hij : j = i := le32_inj (by omega) (by omega) he
    subst hij
    simp only at hj
    rw [hix] at hj
    simp at hj
    rw [hj]
    simpa using h2
  · intro hn
    exact ⟨(x, i), List.mem_filter.2 ⟨List.mem_zipIdx_iff_getElem?.2 hix, hn⟩, rfl⟩

example : xlsbShared (fun s => s == ['x'])
      [19, 7, 0, 1, 0, 0, 0, 97, 0, 5, 1, 9, 19, 9, 0, 1, 0, 0, 0, 120, 0, 7, 7] =
    .ok ([some ['a'], some ['x']], [[1, 0, 0, 0]]) := by
  decide +kernel

/-! ## C48 -/

/-- C48 for XLSX: the null test is "one of the error texts, or what the caller asked for". -/
theorem C48_xlsx_predicate (arg : NullArg) (s : Str) :
    skipPredicate errorStringsXlsx arg s = true ↔
      s ∈ errorTexts ∨ (match arg with | .none => False | .pred p => p s = true | .values l => s ∈ l) := by
  have he : (errorStringsXlsx.contains (.str s)) = true ↔ s ∈ errorTexts := by
    simp [errorStringsXlsx]
  cases arg with
  | none => rw [skipPredicate, he]; simp
  | pred p => rw [skipPredicate, Bool.or_eq_true, he]
  | values l =>
    rw [skipPredicate, List.contains_iff_mem, List.mem_append, ← List.contains_iff_mem, he]
    simp

/-- C48 for XLSX: with default arguments the null texts are the eight error values of ECMA-376 (18.17.3) and six
Russian ones. -/
theorem C48_xlsx_default (s : Str) : skipPredicate errorStringsXlsx .none s = true ↔
    s ∈ ["#NULL!", "#DIV/0!", "#VALUE!", "#REF!", "#NAME?", "#NUM!", "#N/A", "#GETTING_DATA"].map String.toList ∨
    s ∈ ["#ДЕЛ/0!", "#ЗНАЧ!", "#ССЫЛКА!", "#ИМЯ?", "#ЧИСЛО!", "#Н/Д"].map String.toList := by
  rw [C48_xlsx_predicate]
  simp [errorTexts, or_assoc]

/-- C48 for XLSB, what the code does: the error texts are stored as bytes, so a text never equals one of them. The
null test is only what the caller asked for. -/
theorem C48_xlsb_predicate (arg : NullArg) (s : Str) :
    skipPredicate errorStringsXlsb arg s = true ↔
      (match arg with | .none => False | .pred p => p s = true | .values l => s ∈ l) := by
  have he : (errorStringsXlsb.contains (.str s)) = false := by
    simp [errorStringsXlsb]
  cases arg with
  | none => rw [skipPredicate, he]; simp
  | pred p => rw [skipPredicate, he]; simp
  | values l =>
    have he' : PyKey.str s ∉ errorStringsXlsb := by simpa using he
    rw [skipPredicate, List.contains_iff_mem, List.mem_append]
    simp [he']

/-- Finding: no XLSB reader with default arguments drops any error text. -/
theorem C48_xlsb_errors_kept : ∀ s ∈ errorTexts, skipPredicate errorStringsXlsb .none s = false ∧
    skipPredicate errorStringsXlsx .none s = true := by
  decide +kernel

example : skipPredicate errorStringsXlsx (.values [['-']]) "#N/A".toList = true ∧
    skipPredicate errorStringsXlsx (.values [['-']]) ['-'] = true ∧
    skipPredicate errorStringsXlsx (.pred fun s => s.length == 1) ['?'] = true ∧
    skipPredicate errorStringsXlsx .none ['-'] = false := by
  decide +kernel

/-- Finding: `null_shared` is only filled when the first cell has been delivered, so a null shared string in the
first cell of a sheet is delivered, while the same text in the next cell is dropped. -/
theorem C48_first_cell_escapes :
    (iterXlsb [] (fun s => s == ['x']) (fun seen => if seen then [le32 0] else []) {}
      [⟨0, []⟩, ⟨7, cellPayload 0 [0, 0, 0] 0 (.shared 0) []⟩, ⟨7, cellPayload 1 [0, 0, 0] 0 (.shared 0) []⟩]
      {}).map evCells = .ok [⟨0, 0, 0x11, .bytes [0, 0, 0, 0]⟩] := by
  decide +kernel

/-! ## C51 -/

/-- C51, exact behaviour: a cell format is temporal exactly when the *low byte* of its number format id is a
built-in date format, or its custom code is recognised *with its length field in front*. -/
theorem C51_exact (part : Bytes) (xs : List Xf) (fs : List (Nat × Str))
    (h47 : scanBiff (some [47]) part = xs.map Xf.record) (h44 : scanBiff (some [44]) part = fs.map fmtRecord)
    (hlen : xs.length ≤ 65536) (hx : ∀ x ∈ xs, x.parent < 65536 ∧ x.fmt < 65536)
    (hf : ∀ f ∈ fs, f.1 < 65536 ∧ (utf16 f.2).length < 0xD800) (hn : (fs.map (·.1)).Nodup) :
    ∃ l, xlsbStyles part = .ok l ∧
      ∀ i x, (xs.filter fun x => x.parent ≠ 0xFFFF)[i]? = some x →
      (le16 i ++ [0] ∈ l ↔ x.fmt % 256 ∈ temporalStyles ∨
        ∃ code, (x.fmt, code) ∈ fs ∧
          fmtTemporal (beforeSemicolon (Char.ofNat (utf16 code).length :: Char.ofNat 0 :: code)) = true) :=
  xlsbStyles_exact part xs fs h47 h44 hlen hx hf hn

/-- C51, partial: number format ids below 256 and codes whose length is not the code of a quote, a bracket, a
semicolon or a date letter.  Then a cell format is temporal exactly when its format id is a built-in date format or
its custom code (first section) shows a date.  Missing: the other ids and lengths, where it fails (below). -/
theorem C51_classification_partial (part : Bytes) (xs : List Xf) (fs : List (Nat × Str))
    (h47 : scanBiff (some [47]) part = xs.map Xf.record) (h44 : scanBiff (some [44]) part = fs.map fmtRecord)
    (hlen : xs.length ≤ 65536) (hx : ∀ x ∈ xs, x.parent < 65536 ∧ x.fmt < 256)
    (hf : ∀ f ∈ fs, f.1 < 65536 ∧ (utf16 f.2).length < 0xD800 ∧
      Char.ofNat (utf16 f.2).length ∉ '"' :: '[' :: ';' :: dateLetters)
    (hn : (fs.map (·.1)).Nodup)
    (hp : ∀ f ∈ fs, '\n' ∉ f.2 ∧ PlainEscapes (beforeSemicolon f.2)) :
    ∃ l, xlsbStyles part = .ok l ∧
      ∀ i x, (xs.filter fun x => x.parent ≠ 0xFFFF)[i]? = some x →
      (le16 i ++ [0] ∈ l ↔ x.fmt ∈ temporalStyles ∨
        ∃ code, (x.fmt, code) ∈ fs ∧ showsDate (beforeSemicolon code)) := by
  obtain ⟨l, h1, h2⟩ := xlsbStyles_exact part xs fs h47 h44 hlen
    (fun x h => ⟨(hx x h).1, by have := (hx x h).2; omega⟩) (fun f h => ⟨(hf f h).1, (hf f h).2.1⟩) hn
  refine ⟨l, h1, ?_⟩
  intro i x hi
  rw [h2 i x hi]
  have hxm : x ∈ xs := (List.mem_filter.1 (List.mem_of_getElem? hi)).1
  rw [Nat.mod_eq_of_lt (hx x hxm).2]
  have key : ∀ code, (x.fmt, code) ∈ fs →
      (fmtTemporal (beforeSemicolon (Char.ofNat (utf16 code).length :: Char.ofNat 0 :: code)) = true ↔
        showsDate (beforeSemicolon code)) := by
    intro code hm
    obtain ⟨_, _, hc⟩ := hf _ hm
    simp only [List.mem_cons, not_or] at hc
    obtain ⟨hq, hb, hs, hd⟩ := hc
    rw [beforeSemicolon, List.takeWhile_cons_of_pos (by simpa using hs), List.takeWhile_cons_of_pos (by decide),
      ← beforeSemicolon, fmtTemporal_cons _ _ hq hb hd _ (by decide) (by decide) (by decide) (by decide)]
    apply fmtTemporal_iff
    · intro h
      exact (hp _ hm).1 ((List.takeWhile_prefix _).subset h)
    · exact (hp _ hm).2
  constructor
  · rintro (h | ⟨code, hm, h⟩)
    · exact Or.inl h
    · exact Or.inr ⟨code, hm, (key code hm).1 h⟩
  · rintro (h | ⟨code, hm, h⟩)
    · exact Or.inl h
    · exact Or.inr ⟨code, hm, (key code hm).2 h⟩

/-- A style sheet with a style format and three cell formats: General, a built-in date, a custom code. -/
def exStyles (fmtId : Nat) (code : Str) : List Record :=
  [fmtRecord (fmtId, code), (⟨0xFFFF, 0, []⟩ : Xf).record, (⟨0, 0, []⟩ : Xf).record, (⟨0, 14, []⟩ : Xf).record,
    (⟨0, fmtId, []⟩ : Xf).record]

example : (writeAll (exStyles 165 "yyyy\\-mm".toList) []).bind xlsbStyles = .ok [[2, 0, 0], [1, 0, 0]] := by
  decide +kernel

/-- Finding: the length field of a custom code is read as part of the code.  A code of 59 characters is cut at its
length (a semicolon) and never temporal; a code of 100 characters (the letter d) always is, here a hundred zeros. -/
theorem C51_length_as_text :
    (writeAll (exStyles 165 (List.replicate 59 'd')) []).bind xlsbStyles = .ok [[1, 0, 0]] ∧
    (writeAll (exStyles 165 (List.replicate 100 '0')) []).bind xlsbStyles = .ok [[2, 0, 0], [1, 0, 0]] := by
  decide +kernel

/-- Finding: only the low byte of the format id is compared with the built-in date formats; custom format 270
(0x010E) with the plain code `0.0` is temporal. -/
theorem C51_low_byte :
    (writeAll (exStyles 270 ['0', '.', '0']) []).bind xlsbStyles = .ok [[1, 0, 0], [2, 0, 0]] := by
  decide +kernel

/-! ## C52 -/

/-- C52.  Choice by index and by name. -/
theorem C52_select (sheets : List (Str × Str)) (i : Int) (s path : Str) :
    (selectSheet sheets (.index i) = .ok path ↔ 0 ≤ i ∧ (sheets[i.toNat]?).map (·.2) = some path) ∧
    (selectSheet sheets (.index i) = .error .indexError ↔ i < 0 ∨ (sheets.length : Int) ≤ i) ∧
    (selectSheet sheets (.name s) = .error .keyError ↔ s ∉ sheets.map (·.1)) ∧
    ((sheets.map (·.1)).Nodup → (selectSheet sheets (.name s) = .ok path ↔ (s, path) ∈ sheets)) := by
  refine ⟨?_, ?_, ?_, ?_⟩
  · rw [selectSheet]
    split
    next h =>
      have hl : i.toNat < sheets.length := by omega
      simp [List.getElem?_eq_getElem hl, h.1]
    next h =>
      constructor
      · intro h; simp at h
      · rintro ⟨h0, h1⟩
        have : i.toNat < sheets.length := by
          by_contra hc
          rw [List.getElem?_eq_none (by omega)] at h1
          simp at h1
        omega
  · rw [selectSheet]
    split
    next h =>
      have hl : i.toNat < sheets.length := by omega
      simp [List.getElem?_eq_getElem hl]
      omega
    next h => simp; omega
  · rw [selectSheet]
    cases hf : sheets.find? fun p => p.1 = s with
    | none =>
      simp only [true_iff]
      rw [List.find?_eq_none] at hf
      intro hm
      obtain ⟨p, hp, rfl⟩ := List.mem_map.1 hm
      exact hf p hp (by simp)
    | some p =>
      have h1 := List.mem_of_find?_eq_some hf
      have h2 : p.1 = s := by simpa using List.find?_some hf
      simp only [reduceCtorEq, false_iff, not_not]
      exact h2 ▸ List.mem_map_of_mem h1
  · intro hn
    rw [selectSheet]
    cases hf : sheets.find? fun p => p.1 = s with
    | none =>
      simp only [reduceCtorEq, false_iff]
      rw [List.find?_eq_none] at hf
      intro hm
      exact hf _ hm (by simp)
    | some p =>
      have h1 := List.mem_of_find?_eq_some hf
      have h2 : p.1 = s := by simpa using List.find?_some hf
      simp only [Except.ok.injEq]
      constructor
      · rintro rfl
        rw [← h2]
        exact h1
      · intro hm
        have := List.inj_on_of_nodup_map hn h1 hm h2
        rw [this]

/-- C52 for XLSB: the sheets are the bundle records in order, each with the target of its relationship. -/
theorem C52_xlsb_sheets (rels : List Relationship) (workbook : Bytes) (es : List SheetEntry) (tgt : Str → Str)
    (hw : scanBiff (some [412]) workbook = es.map SheetEntry.record) (hf : ∀ e ∈ es, e.Fits)
    (ht : ∀ e ∈ es, (rels.find? fun x => x.id = e.rel).map (·.target) = some (tgt e.rel))
    (hn : (es.map (·.name)).Nodup) :
    xlsbSheets rels workbook = .ok (es.map fun e => (e.name, xlPrefix ++ tgt e.rel)) := by
  rw [xlsbSheets, hw, xlsbSheetsFrom_records rels tgt es [] hf ht (by simpa using hn)]
  rfl

/-- A string that may be absent, as a text. -/
def textOrEmpty : Option Str → Str
  | none => []
  | some s => s

/-- C52.  A null relationship id or sheet name in a bundle record counts as the empty text. -/
theorem C52_xlsb_null (rels : List Relationship) (workbook : Bytes) (st tab : Nat) (rel name : Option Str) (t : Str)
    (hst : st < 2 ^ 32) (htab : tab < 2 ^ 32) (h1 : ∀ s, rel = some s → NoMark s ∧ (utf16 s).length < 0xFFFFFFFF)
    (h2 : ∀ s, name = some s → NoMark s ∧ (utf16 s).length < 0xFFFFFFFF)
    (hw : scanBiff (some [412]) workbook = [⟨412, le32 st ++ le32 tab ++ nullableString rel ++ nullableString name⟩])
    (ht : (rels.find? fun x => x.id = textOrEmpty rel).map (·.target) = some t) :
    xlsbSheets rels workbook = .ok [(textOrEmpty name, xlPrefix ++ t)] := by
  have hb := C11_bundle_nullable st tab rel name [] hst htab h1 h2
  rw [List.append_nil] at hb
  rw [xlsbSheets, hw, xlsbSheetsFrom]
  simp only [hb]
  have e : ∀ o : Option Str, xstrValue o = textOrEmpty o := by
    intro o; cases o <;> rfl
  obtain ⟨x, hx, rfl⟩ := Option.map_eq_some_iff.mp ht
  rw [← e rel] at hx
  rw [← e name, hx]
  rfl

example : (writeAll [⟨412, le32 0 ++ le32 1 ++ wideString ['r', '1'] ++ [255, 255, 255, 255]⟩] []).bind
    (xlsbSheets [⟨['r', '1'], [], ['x']⟩]) = .ok [([], "xl/x".toList)] := by decide +kernel

/-- A workbook part with two sheets. -/
def exWorkbook : Py Bytes :=
  writeAll [⟨0, []⟩, (⟨0, 1, ['r', '2'], ['B']⟩ : SheetEntry).record,
    (⟨0, 2, ['r', '1'], ['A']⟩ : SheetEntry).record] []

example : (exWorkbook.bind (xlsbSheets [⟨['r', '1'], [], ['x']⟩, ⟨['r', '2'], [], ['y']⟩])).bind
      (fun d => selectSheet d (.index 1)) = .ok "xl/x".toList ∧
    (exWorkbook.bind (xlsbSheets [⟨['r', '1'], [], ['x']⟩, ⟨['r', '2'], [], ['y']⟩])).bind
      (fun d => selectSheet d (.name ['B'])) = .ok "xl/y".toList ∧
    exWorkbook.bind (xlsbSheets [⟨['r', '1'], [], ['x']⟩]) = .error .stopIteration := by
  decide +kernel

end Rxls
