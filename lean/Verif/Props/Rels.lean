import Verif.Lemmas.Rels

/-! # Properties C12, C13: relationships and column letters -/

namespace Rxls

/-! ## C12 -/

/-- C12.  A text put unescaped between double quotes is read back unchanged, with the parser right
after the closing quote, exactly when it contains no character XML re-interprets. -/
theorem C12_value_survives_iff (v rest : Str) :
    attrValue ((v ++ '"' :: rest).length + 1) (v ++ '"' :: rest) = some (v, rest) ↔ XmlClean v :=
  attrValue_iff v rest

/-- C12.  The type read back is the last `/`-segment of the type written, hence the type itself
exactly when it has no `/`. -/
theorem C12_type_last_segment (t : Str) :
    (lastSegment (relsNs ++ '/' :: t) = t ↔ '/' ∉ t) ∧
    (∀ a b : Str, t = a ++ '/' :: b → '/' ∉ b → lastSegment (relsNs ++ '/' :: t) = b) := by
  constructor
  · constructor
    · intro h hm
      have := lastSegment_noSlash (relsNs ++ '/' :: t)
      rw [h] at this
      exact this hm
    · intro h
      exact lastSegment_append relsNs t h
  · rintro a b rfl hb
    have := lastSegment_append (relsNs ++ '/' :: a) b hb
    simpa using this

/-- C12.  A part with any number of dumped relationships is scanned back to the same relationships
when their texts are clean and their types have no `/`. -/
theorem C12_document_roundtrip (rs : List Relationship)
    (h : ∀ r ∈ rs, XmlClean r.id ∧ XmlClean r.type ∧ '/' ∉ r.type ∧ XmlClean r.target) :
    scanXml (relsDocument rs) = some rs :=
  scanXml_document rs h

/-- C12.  One dumped relationship is read back unchanged *only* in that case. -/
theorem C12_roundtrip_only_if (r : Relationship) (rest : Str)
    (h : scanOne (r.dumpXml ++ rest) = some (r, rest)) :
    XmlClean r.id ∧ XmlClean r.type ∧ '/' ∉ r.type ∧ XmlClean r.target :=
  scanOne_only_if r rest h

example : XmlClean "rId1".toList ∧ XmlClean "worksheets/sheet1.bin".toList ∧
    scanXml (relsDocument [⟨"rId1".toList, "worksheet".toList, "worksheets/sheet1.bin".toList⟩]) =
      some [⟨"rId1".toList, "worksheet".toList, "worksheets/sheet1.bin".toList⟩] := by
  decide +kernel

/-- Finding: `dump_xml` does not escape; a target with an ampersand is unreadable, one with an
entity-like text is read back as something else. -/
theorem C12_unescaped_witness :
    scanXml (relsDocument [⟨['a'], ['t'], "x&y.xml".toList⟩]) = none ∧
    scanXml (relsDocument [⟨['a'], ['t'], "x&amp;y.xml".toList⟩]) =
      some [⟨['a'], ['t'], "x&y.xml".toList⟩] := by
  decide +kernel

/-! ## C13 -/

/-- C13.  A cell reference with the name of column `n` followed by row digits has column index `n`. -/
theorem C13_column_index (n : Nat) (digits : Bytes) (h : IsDigits digits) :
    colIdx (colName n ++ digits) = n :=
  colIdx_colName n digits h

/-- C13.  Distinct columns get distinct indices, whatever the rows. -/
theorem C13_column_injective (m n : Nat) (d e : Bytes) (hd : IsDigits d) (he : IsDigits e)
    (h : colIdx (colName m ++ d) = colIdx (colName n ++ e)) : m = n := by
  rw [colIdx_colName m d hd, colIdx_colName n e he] at h
  omega

example : colName 0 = [65] ∧ colName 27 = [65, 66] ∧ colName 16383 = [88, 70, 68] ∧
    colIdx [88, 70, 68, 49, 48] = 16383 := by
  refine ⟨by rw [colName]; rfl, by rw [colName, colName]; rfl,
    by rw [colName, colName, colName]; rfl, by decide +kernel⟩

/-- Finding: lower-case letters are not normalised (`a1` is column 32), and `$` is skipped. -/
theorem C13_lowercase_witness : colIdx [97, 49] = 32 ∧ colIdx [36, 66, 36, 50] = 1 := by
  decide +kernel

end Rxls
