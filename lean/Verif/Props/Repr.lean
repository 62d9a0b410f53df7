import Verif.Lemmas.Repr
import Verif.Props.Biff
import Verif.Model.Xlsb

/-! # Properties C72 to C74: printed records, compiled column letters, other records -/

namespace Rxls

/-! ## C72 -/

/-- Record numbers of MS-XLSB, section 2.3.2 (those of workbooks, sheets, shared strings and styles). -/
def standardRecords : List (String × Nat) := [
  ("BrtRowHdr", 0), ("BrtCellBlank", 1), ("BrtCellRk", 2), ("BrtCellError", 3), ("BrtCellBool", 4),
  ("BrtCellReal", 5), ("BrtCellSt", 6), ("BrtCellIsst", 7), ("BrtFmlaString", 8), ("BrtFmlaNum", 9),
  ("BrtFmlaBool", 10), ("BrtFmlaError", 11), ("BrtSSTItem", 19), ("BrtName", 39), ("BrtFont", 43), ("BrtFmt", 44),
  ("BrtFill", 45), ("BrtBorder", 46), ("BrtXF", 47), ("BrtStyle", 48), ("BrtColInfo", 60), ("BrtCellRString", 62),
  ("BrtFileVersion", 128), ("BrtBeginSheet", 129), ("BrtEndSheet", 130), ("BrtBeginBook", 131), ("BrtEndBook", 132),
  ("BrtBeginBundleShs", 143), ("BrtEndBundleShs", 144), ("BrtBeginSheetData", 145), ("BrtEndSheetData", 146),
  ("BrtWsProp", 147), ("BrtWsDim", 148), ("BrtWbProp", 153), ("BrtBundleSh", 156), ("BrtBeginSst", 159),
  ("BrtEndSst", 160), ("BrtArrFmla", 426), ("BrtShrFmla", 427), ("BrtBeginFmts", 615), ("BrtEndFmts", 616),
  ("BrtBeginCellXFs", 617), ("BrtEndCellXFs", 618), ("BrtBeginCellStyleXFs", 626), ("BrtEndCellStyleXFs", 627)]

/-- C72.  The number shown for a record is the value of its id field on the wire, read as MS-XLSB says: seven bits per
byte, low group first. -/
theorem C72_shown_number (id : Nat) (h : EncodableId id) (h2 : id < 0x8000) :
    shownNumber id = groupsValue (idBytes id) := by
  rw [shownNumber_eq id h, Nat.mod_eq_of_lt]
  rcases h with h | ⟨h, h'⟩
  · rw [idBytes, if_pos h]
    simp [groupsValue]
    omega
  · rw [idBytes, if_neg (by omega)]
    simp [groupsValue]
    omega

/-- C72.  The names of the table have the numbers of the standard. -/
theorem C72_standard_numbers : ∀ e ∈ standardRecords, ∃ id, biffEnumGet e.1 = .ok id ∧ shownNumber id = e.2 := by
  have : standardRecords.all (fun e => match biffEnumGet e.1 with
    | .ok id => shownNumber id == e.2
    | .error _ => false) = true := by decide +kernel
  intro e he
  have h := List.all_eq_true.mp this e he
  cases hg : biffEnumGet e.1 with
  | ok id => rw [hg] at h; exact ⟨id, rfl, by simpa using h⟩
  | error _ => rw [hg] at h; simp at h

/-- C72.  The printed text determines the record. -/
theorem C72_repr_injective (r s : Record) (h : r.repr = s.repr) : r = s := repr_inj r s h

/-- C72.  For an id of any size the shown number is the low 14 bits of that value (ids from `0x8000` on, which the
standard does not have, share numbers). -/
theorem C72_shown_number_any (id : Nat) (h : EncodableId id) :
    shownNumber id = groupsValue (idBytes id) % 2 ^ 14 := shownNumber_eq id h

/-- C72.  The size is printed in decimal, centred in four places, with the odd place on the right. -/
theorem C72_size_field (n : Nat) : ∃ l d r, centred4 n = List.replicate l '-' ++ d ++ List.replicate r '-' ∧
    d.foldl (fun a c => 10 * a + (c.toNat - 48)) 0 = n ∧ d ≠ [] ∧ l + r = 4 - d.length ∧ l ≤ r ∧ r ≤ l + 1 := by
  refine ⟨_, _, _, rfl, paddedDigits_read n, ?_, ?_, ?_, ?_⟩
  · unfold paddedDigits
    simp only
    intro h
    have := congrArg List.length h
    simp only [List.length_map, List.length_append, List.length_replicate, List.length_nil] at this
    omega
  all_goals omega

/-- C72.  The content is printed as two hexadecimal digits per byte with a space between bytes. -/
theorem C72_content_field (b : Bytes) (h : b ≠ []) :
    hexBytes b ++ [' '] = b.flatMap fun x => [Nat.digitChar (x.toNat / 16), Nat.digitChar (x.toNat % 16), ' '] := by
  unfold hexBytes
  induction b with
  | nil => exact absurd rfl h
  | cons x b ih =>
    cases b with
    | nil => simp [List.intercalate, paddedDigits_byte]
    | cons y b =>
      rw [List.map_cons, List.map_cons, List.intercalate_cons_cons, List.flatMap_cons, ← ih (by simp), paddedDigits_byte]
      simp

/-- C72.  The line: the number in four decimal digits, the id in four hexadecimal digits, the size, the name, and the
content in the second line. -/
theorem C72_layout (r : Record) (h1 : shownNumber r.recId < 10000) (h2 : r.recId < 65536) :
    r.repr = [shownNumber r.recId / 1000 % 10, shownNumber r.recId / 100 % 10, shownNumber r.recId / 10 % 10,
        shownNumber r.recId % 10].map Nat.digitChar ++ " (".toList ++
      [r.recId / 4096 % 16, r.recId / 256 % 16, r.recId / 16 % 16, r.recId % 16].map Nat.digitChar ++ ") <".toList ++
      centred4 r.data.length ++ "> `".toList ++ (recName r.recId).toList ++ "`\n\t[".toList ++ hexBytes r.data ++ "]".toList := by
  unfold Record.repr
  rw [paddedDigits_four' (by norm_num) (by simpa using h1), paddedDigits_four' (by norm_num) (by simpa using h2)]
  simp [Nat.div_div_eq_div_mul]

example : centred4 7 = "-7--".toList ∧ hexBytes [0x0F, 0xA0] = "0f a0".toList ∧ shownNumber 0x8180 = 128 := by
  decide +kernel

example : Record.repr ⟨0x19C, [1, 0xAB]⟩ = "0156 (019c) <-2--> `BrtBundleSh`\n\t[01 ab]".toList := by decide +kernel

/-! ## C73 -/

/-- C73.  For every text, the compiled `col_idx` is the plain one cut to 32 bits. -/
theorem C73_compiled (col : Bytes) : colIdxNumba col = (BitVec.ofInt 32 (colIdx col)).toInt := colIdxNumba_eq col

/-- C73.  For the name of any column below `2^31`, with any row digits, both give the column. -/
theorem C73_agree (n : Nat) (h : n < 2 ^ 31) (digits : Bytes) (hd : IsDigits digits) :
    colIdxNumba (colName n ++ digits) = n ∧ colIdx (colName n ++ digits) = n := by
  refine ⟨?_, colIdx_colName n digits hd⟩
  rw [C73_compiled, colIdx_colName n digits hd, BitVec.toInt_ofInt]
  simp [Int.bmod]
  omega

example : colIdxNumba [88, 70, 68, 49, 48] = 16383 := by decide +kernel

/-- Beyond `2^31` columns the compiled form wraps (a sheet has 16384): `FXSHRXY`. -/
example : colIdx [70, 88, 83, 72, 82, 88, 89] = 2147483648 ∧
    colIdxNumba [70, 88, 83, 72, 82, 88, 89] = -2147483648 := by decide +kernel

/-! ## C74 -/

/-- C74.  What is read from the bytes of an XLSB sheet depends on its row, cell and end-of-data records alone: records
of any other kind, with any content, may stand anywhere. -/
theorem C74_other_records_ignored (styles : List Bytes) (isNull : Str → Bool) (nulls : Bool → List Bytes)
    (o : SheetArgs) (rs rs' : List Record) (b b' : Bytes) (hb : writeAll rs [] = .ok b)
    (hb' : writeAll rs' [] = .ok b')
    (h : rs.filter (fun r => r.recId ∈ [0, 2, 4, 5, 6, 7, 8, 9, 10, 402]) =
      rs'.filter (fun r => r.recId ∈ [0, 2, 4, 5, 6, 7, 8, 9, 10, 402])) :
    xlsbSheet styles isNull nulls o b = xlsbSheet styles isNull nulls o b' := by
  have key : ∀ rs b, writeAll rs [] = .ok b → scanBiff (some sheetIds) b =
      rs.filter (fun r => r.recId ∈ [0, 2, 4, 5, 6, 7, 8, 9, 10, 402]) := by
    intro rs b hb
    have := C01_stream_roundtrip_append rs b [] hb
    rw [List.append_nil] at this
    rw [C04_only_filter, this, scanBiff_nil, List.append_nil]
    apply List.filter_congr
    intro r _
    simp [sheetIds]
  unfold xlsbSheet
  rw [key rs b hb, key rs' b' hb', h]

/-- Finding: that includes the cells with rich text (`BrtCellRString`, number 62), whose texts are lost. -/
theorem C74_rich_text_lost (styles : List Bytes) (isNull : Str → Bool) (nulls : Bool → List Bytes)
    (o : SheetArgs) (pre post : List Record) (content b b' : Bytes)
    (hb : writeAll (pre ++ ⟨62, content⟩ :: post) [] = .ok b) (hb' : writeAll (pre ++ post) [] = .ok b') :
    ("BrtCellRString", 62) ∈ standardRecords ∧
    xlsbSheet styles isNull nulls o b = xlsbSheet styles isNull nulls o b' :=
  ⟨by decide, C74_other_records_ignored styles isNull nulls o _ _ b b' hb hb' (by simp)⟩

example : (writeAll [⟨0, [0, 0, 0, 0]⟩, ⟨62, [0, 0, 0, 0, 0, 0, 0, 0, 0, 1, 0, 0, 0, 65, 0]⟩,
      ⟨4, [1, 0, 0, 0, 0, 0, 0, 0, 1]⟩, ⟨402, []⟩] []).bind
        (xlsbSheet [] (fun _ => false) (fun _ => []) {}) =
    .ok [.callback, .cell ⟨0, 1, 0x22, .bytes [1]⟩, .callback] := by decide +kernel

end Rxls
