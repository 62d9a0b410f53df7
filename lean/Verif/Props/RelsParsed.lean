import Verif.Props.Archive
import Verif.Props.Rels
import Verif.Spec.XlsxWrite

/-! # Property C12 with the whole XML parser -/

namespace Rxls

/-- An attribute as `dump_xml` writes it. -/
def dumpedAtt (name value : Str) : AttForm := { name := name, value := value.map .raw }

/-- A dumped relationship. -/
def dumpedPiece (r : Relationship) : Piece :=
  .empty tagRelationship [dumpedAtt attId r.id, dumpedAtt attType (relsNs ++ '/' :: r.type), dumpedAtt attTarget r.target] []

/-- A part of dumped relationships. -/
def dumpedForm (rs : List Relationship) : XmlForm :=
  { body := .start (tagRelationship ++ ['s']) [] [] :: (rs.map dumpedPiece ++ [.close (tagRelationship ++ ['s']) []]) }

theorem raw_text (s : Str) : (s.map CForm.raw).flatMap CForm.text = s := by
  induction s with
  | nil => rfl
  | cons c s ih => rw [List.map_cons, List.flatMap_cons, ih]; rfl

theorem dumpedPiece_text (r : Relationship) : (dumpedPiece r).text = r.dumpXml := by
  have h1 : kwOpen = '<' :: (tagRelationship ++ (' ' :: (attId ++ ['=', '"']))) := by decide +kernel
  have h2 : kwType = ' ' :: (attType ++ ['=', '"']) := by decide +kernel
  have h3 : kwTarget = ' ' :: (attTarget ++ ['=', '"']) := by decide +kernel
  have h4 : kwClose = ['/', '>'] := by decide +kernel
  unfold dumpedPiece Relationship.dumpXml
  rw [h1, h2, h3, h4]
  simp [Piece.text, dumpedAtt, AttForm.text, AttForm.quote, raw_text]
  rfl

theorem dumpedForm_text (rs : List Relationship) : (dumpedForm rs).text = relsDocument rs := by
  have h1 : kwRoot = '<' :: (tagRelationship ++ ['s', '>']) := by decide +kernel
  have h2 : kwEnd = '<' :: '/' :: (tagRelationship ++ ['s', '>']) := by decide +kernel
  have h3 : (rs.map dumpedPiece).flatMap Piece.text = rs.flatMap Relationship.dumpXml := by
    rw [List.flatMap_map]
    congr 1
    funext r
    exact dumpedPiece_text r
  unfold relsDocument dumpedForm XmlForm.text
  rw [h1, h2]
  simp only [declText, Misc.text, List.flatMap_nil, List.append_nil, List.nil_append, List.flatMap_cons, List.flatMap_append, h3,
    Piece.text, List.append_assoc, List.cons_append]

theorem clean_raw {v : Str} (h : XmlClean v) : ∀ f ∈ v.map CForm.raw, f.Ok ['"'] := by
  intro f hf
  obtain ⟨c, hc, rfl⟩ := List.mem_map.mp hf
  obtain ⟨h1, h2, h3, h4, h5, h6⟩ := h c hc
  refine ⟨?_, h2, h3, by simpa using h1⟩
  simp [xmlChar, h4, h5, h6]

theorem clean_value {v : Str} (h : XmlClean v) : (v.map CForm.raw).map CForm.attChar = v := by
  rw [List.map_map]
  have : ∀ c ∈ v, (CForm.attChar ∘ CForm.raw) c = id c := by
    intro c hc
    obtain ⟨h1, h2, h3, h4, h5, h6⟩ := h c hc
    simp only [Function.comp, CForm.attChar, id]
    split
    · rename_i hw
      simp only [xmlWs, Bool.or_eq_true, decide_eq_true_eq, beq_iff_eq] at hw
      rcases hw with ((hw | hw) | hw) | hw
      · exact hw.symm
      all_goals subst hw; exact absurd h4 (by decide)
    · rfl
  rw [List.map_congr_left this, List.map_id]

theorem nested_dumped (rs : List Relationship) (t : Str) :
    Nested [t] (rs.map dumpedPiece ++ [.close t []]) := by
  induction rs with
  | nil => exact ⟨rfl, rfl⟩
  | cons r rs ih => exact ih

theorem events_dumped (deliver : Str → List Xml) (hd : deliver [] = []) (rs : List Relationship) (t : Str)
    (h : ∀ r ∈ rs, XmlClean r.id ∧ XmlClean r.type ∧ '/' ∉ r.type ∧ XmlClean r.target) :
    pieceEvents deliver [] (rs.map dumpedPiece ++ [.close t []]) =
      rs.flatMap (fun r => [.start tagRelationship [(attId, r.id), (attType, relsNs ++ '/' :: r.type), (attTarget, r.target)],
        .close tagRelationship]) ++ [.close t] := by
  have hns : XmlClean relsNs := by decide +kernel
  induction rs with
  | nil => simp [pieceEvents, hd]
  | cons r rs ih =>
    obtain ⟨h1, h2, -, h3⟩ := h r (by simp)
    have h4 : XmlClean (relsNs ++ '/' :: r.type) := by
      intro c hc
      rcases List.mem_append.mp hc with hc | hc
      · exact hns c hc
      · rcases List.mem_cons.mp hc with rfl | hc
        · decide
        · exact h2 c hc
    rw [List.map_cons, List.cons_append, dumpedPiece, pieceEvents, hd, ih fun x hx => h x (by simp [hx])]
    simp only [AttForm.pair, dumpedAtt, clean_value h1, clean_value h3, clean_value h4, List.map_cons, List.map_nil,
      List.nil_append, List.flatMap_cons, List.cons_append]

/-- C12.  The part of dumped relationships, given to an XML parser, is scanned back to the same relationships when their
texts are clean and their types have no `/`. -/
theorem C12_parsed_roundtrip (pieces : Str → List Str) (rs : List Relationship)
    (h : ∀ r ∈ rs, XmlClean r.id ∧ XmlClean r.type ∧ '/' ∉ r.type ∧ XmlClean r.target) :
    scanRels (parseXml pieces (relsDocument rs)) = .ok rs := by
  have hns : XmlClean relsNs := by decide +kernel
  have hcr : ∀ v, XmlClean v → '\r' ∉ v := fun v hv hm => absurd (hv _ hm).2.2.2.1 (by decide)
  have hn : '\r' ∉ relsDocument rs := by
    have k : ∀ l : Str, l ∈ [kwRoot, kwEnd, kwOpen, kwType, kwTarget, kwClose] → '\r' ∉ l := by decide +kernel
    intro hm
    simp only [relsDocument, List.mem_append, List.mem_flatMap, Relationship.dumpXml, List.mem_cons] at hm
    rcases hm with hm | ⟨r, hr, hm⟩ | hm
    · exact k _ (by simp) hm
    · obtain ⟨h1, h2, -, h3⟩ := h r hr
      rcases hm with hm | hm | hm | hm | (hm | hm | hm) | hm | hm | hm | hm | hm
      · exact k _ (by simp) hm
      · exact hcr _ h1 hm
      · exact absurd hm (by decide)
      · exact k _ (by simp) hm
      · exact hcr _ hns hm
      · exact absurd hm (by decide)
      · exact hcr _ h2 hm
      · exact absurd hm (by decide)
      · exact k _ (by simp) hm
      · exact hcr _ h3 hm
      · exact absurd hm (by decide)
      · exact k _ (by simp) hm
    · exact k _ (by simp) hm
  have hname : XmlName tagRelationship ∧ XmlName (tagRelationship ++ ['s']) ∧ XmlName attId ∧ XmlName attType ∧ XmlName attTarget := by
    refine ⟨?_, ?_, ?_, ?_, ?_⟩ <;> exact ⟨⟨_, _, rfl, by decide⟩, by decide⟩
  have hok : (dumpedForm rs).Ok := by
    refine ⟨by simp [dumpedForm], ⟨by simp [dumpedForm], by simp [dumpedForm, Spaces]⟩, ?_, nested_dumped rs _,
      fun hi => ?_, ⟨by simp [dumpedForm], by simp [dumpedForm, Spaces]⟩⟩
    swap
    · have := hi.mem (a := .char (.raw '>')) (by simp)
      simp [dumpedForm, dumpedPiece] at this
    intro p hp
    simp only [dumpedForm, List.mem_cons, List.mem_append, List.mem_map, List.not_mem_nil, or_false] at hp
    have none : Spaces [] := by simp [Spaces]
    rcases hp with rfl | ⟨r, hr, rfl⟩ | rfl
    · exact ⟨hname.2.1, ⟨by simp, by simp⟩, none⟩
    · obtain ⟨h1, h2, -, h3⟩ := h r hr
      have h4 : XmlClean (relsNs ++ '/' :: r.type) := by
        intro c hc
        rcases List.mem_append.mp hc with hc | hc
        · exact hns c hc
        · rcases List.mem_cons.mp hc with rfl | hc
          · decide
          · exact h2 c hc
      refine ⟨hname.1, ⟨?_, by simp only [List.map_cons, List.map_nil, dumpedAtt]; decide⟩, none⟩
      intro a ha
      simp only [List.mem_cons, List.not_mem_nil, or_false] at ha
      have sp : Spaces [' '] ∧ [' '] ≠ [] := ⟨by simp [Spaces, xmlWs], by simp⟩
      rcases ha with rfl | rfl | rfl
      · exact ⟨sp, hname.2.2.1, ⟨none, none⟩, clean_raw h1⟩
      · exact ⟨sp, hname.2.2.2.1, ⟨none, none⟩, clean_raw h4⟩
      · exact ⟨sp, hname.2.2.2.2, ⟨none, none⟩, clean_raw h3⟩
    · exact ⟨hname.2.1, none⟩
  rw [C84_document pieces (dumpedForm rs) hok (relsDocument rs) (by rw [lineEnds_iff, dumpedForm_text, normEol_plain _ hn])]
  have he : (dumpedForm rs).events pieces = .start (tagRelationship ++ ['s']) [] ::
      (rs.flatMap (fun r => [.start tagRelationship [(attId, r.id), (attType, relsNs ++ '/' :: r.type), (attTarget, r.target)],
        .close tagRelationship]) ++ [.close (tagRelationship ++ ['s'])]) := by
    unfold XmlForm.events dumpedForm
    simp only [pieceEvents]
    rw [events_dumped _ rfl rs _ h]
    simp
  rw [he, scanRels_eq]
  · have : ∀ l : List Relationship, (∀ r ∈ l, '/' ∉ r.type) →
        relationships (l.flatMap (fun r => [Xml.start tagRelationship [(attId, r.id), (attType, relsNs ++ '/' :: r.type),
          (attTarget, r.target)], .close tagRelationship])) = l := by
      intro l hl
      induction l with
      | nil => rfl
      | cons r l ih =>
        have h5 := lastSegment_append relsNs r.type (hl r (by simp))
        have h6 := ih fun x hx => hl x (by simp [hx])
        unfold relationships at *
        rw [List.flatMap_cons, List.filterMap_append, h6]
        simp [attrGet, attId, attType, attTarget, h5]
    have h7 := this rs fun r hr => (h r hr).2.2.1
    unfold relationships at *
    rw [List.filterMap_cons, List.filterMap_append, h7]
    simp [tagRelationship]
  · intro t a hm ht
    subst ht
    simp only [List.mem_cons, List.mem_append, List.mem_flatMap, List.not_mem_nil, or_false, Xml.start.injEq, reduceCtorEq] at hm
    rcases hm with ⟨h, -⟩ | ⟨p, -, -, rfl⟩
    · exact absurd h (by decide)
    · simp [attrGet, attId, attType, attTarget]

example : scanRels (parseXml (fun s => [s]) (relsDocument [⟨['r', '1'], ['w'], "a b/c'>.xml".toList⟩, ⟨['r', '2'], [], []⟩])) =
    .ok [⟨['r', '1'], ['w'], "a b/c'>.xml".toList⟩, ⟨['r', '2'], [], []⟩] := by decide +kernel

/-- Finding: a quotation mark in a target ends the attribute, so one relationship can be read back as two. -/
theorem C12_injection :
    scanRels (parseXml (fun s => [s]) (relsDocument [⟨['a'], ['t'], "x\"/><Relationship Id=\"b\" Type=\"/u\" Target=\"y".toList⟩])) =
      .ok [⟨['a'], ['t'], ['x']⟩, ⟨['b'], ['u'], ['y']⟩] := by decide +kernel

/-- Finding: `dump_xml` puts the namespace of the relationship part before the type.  The types of ECMA-376 (part 1,
12.3.24) begin with another one, so a dumped relationship to a worksheet has a type no other reader knows.  The reader of
rxls looks at the last segment only and does not notice. -/
theorem C12_type_uri :
    (∃ pre post, (⟨['r', '1'], ['w', 'o', 'r', 'k', 's', 'h', 'e', 'e', 't'], ['x']⟩ : Relationship).dumpXml = pre ++
      "http://schemas.openxmlformats.org/package/2006/relationships/worksheet".toList ++ post) ∧
    lastSegment "http://schemas.openxmlformats.org/package/2006/relationships/worksheet".toList = lastSegment worksheetUri ∧
    worksheetUri ≠ "http://schemas.openxmlformats.org/package/2006/relationships/worksheet".toList :=
  ⟨⟨"<Relationship Id=\"r1\" Type=\"".toList, "\" Target=\"x\"/>".toList, by decide +kernel⟩, by decide +kernel, by decide +kernel⟩

/-! ## Any part -/

theorem relsHandler_incomplete : ∀ (es : List Xml) (ret : List Relationship), ¬ RelsComplete es →
    relsHandler ret es = .error .keyError
  | [], _, h => absurd (fun _ _ hm => absurd hm (by simp)) h
  | e :: es, ret, h => by
    have rest : (∀ t a, e = .start t a → t = tagRelationship →
        (attrGet a attId).isSome ∧ (attrGet a attType).isSome ∧ (attrGet a attTarget).isSome) → ¬ RelsComplete es := by
      intro h0 hes
      refine h fun t a hm ht => ?_
      rcases List.mem_cons.mp hm with he | hm
      · exact h0 t a he.symm ht
      · exact hes t a hm ht
    cases e with
    | text s =>
      rw [relsHandler]
      · exact relsHandler_incomplete es ret (rest (by simp))
      · simp
    | close s =>
      rw [relsHandler]
      · exact relsHandler_incomplete es ret (rest (by simp))
      · simp
    | start t a =>
      unfold relsHandler
      split
      · rename_i ht
        unfold attrAt
        cases h1 : attrGet a attId with
        | none => rfl
        | some i =>
          cases h2 : attrGet a attType with
          | none => rfl
          | some ty =>
            cases h3 : attrGet a attTarget with
            | none => rfl
            | some g =>
              exact relsHandler_incomplete es _ (rest fun t' a' he _ => by
                cases he
                simp [h1, h2, h3])
      · rename_i ht
        exact relsHandler_incomplete es ret (rest fun t' a' he ht' => by cases he; exact absurd ht' ht)

/-- C12.  What is read from the bytes of a relationship part, exactly: its relationships if it is a well-formed document
whose relationships have their three attributes.  Otherwise an exception: `KeyError` if a relationship before the flaw
has an attribute missing, `RuntimeError` if the document is ill-formed. -/
theorem C12_part_exact (pieces : Str → List Str) (b : Bytes) :
    (∀ rs, scanRels (parsePart pieces b) = .ok rs ↔ ∃ es, IsXml pieces b es ∧ RelsComplete es ∧ rs = relationships es) ∧
    (scanRels (parsePart pieces b) = .error .keyError ↔ ¬ RelsComplete (parsePart pieces b).events) ∧
    (scanRels (parsePart pieces b) = .error .runtimeError ↔
      RelsComplete (parsePart pieces b).events ∧ ¬ ∃ es, IsXml pieces b es) := by
  have hx : (∃ es, IsXml pieces b es) ↔ (parsePart pieces b).bad = false := by
    constructor
    · rintro ⟨es, h⟩
      rw [isXml_parse h]
    · intro h
      refine ⟨(parsePart pieces b).events, (C84_exact pieces b _).mp ?_⟩
      rw [← h]
  have ev : ∀ es, IsXml pieces b es → (parsePart pieces b).events = es := fun es h => by rw [isXml_parse h]
  unfold scanRels
  by_cases hc : RelsComplete (parsePart pieces b).events
  · rw [relsHandler_eq _ hc]
    simp only [List.nil_append]
    cases hb : (parsePart pieces b).bad with
    | true =>
      rw [hb] at hx
      simp only [if_true]
      have hno : ¬ ∃ es, IsXml pieces b es := fun h => by simpa using hx.mp h
      refine ⟨fun rs => ⟨fun h => by simp at h, fun ⟨es, h, _⟩ => absurd ⟨es, h⟩ hno⟩, ?_, ?_⟩
      · simp [hc]
      · simp [hc, hno]
    | false =>
      obtain ⟨es, he⟩ := hx.mpr hb
      simp only [Bool.false_eq_true, if_false]
      refine ⟨fun rs => ⟨fun h => ?_, fun ⟨es', h1, h2, h3⟩ => ?_⟩, by simp [hc], ?_⟩
      · refine ⟨_, (C84_exact pieces b (parsePart pieces b).events).mp (by rw [← hb]), hc, ?_⟩
        simpa using h.symm
      · rw [ev _ h1, h3]
      · simp only [reduceCtorEq, false_iff, not_and, not_not]
        exact fun _ => ⟨es, he⟩
  · rw [relsHandler_incomplete _ _ hc]
    refine ⟨fun rs => ⟨fun h => by simp at h, fun ⟨es, h1, h2, _⟩ => absurd (by rw [ev _ h1]; exact h2) hc⟩, by simp [hc], by simp [hc]⟩

/-- C85.  An archive whose relationship part is ill-formed is refused, and so is one without it. -/
theorem C85_bad_rels {A D : Type} (env : Env) (lib : Lib A D) (search : Str → Option (Str → Bool))
    (reMatch : Str → Str → Py Bool) (toInt : Str → Option Int) (pieces : Str → List Str) (a : FileArgs D) (z : Archive)
    (kind : Kind) (hk : fileKind (z.map (·.1)) = .ok kind) :
    (z.part kind.relsName = none → readArchive env lib search reMatch toInt pieces a z = .error .keyError) ∧
    (∀ b, z.part kind.relsName = some b → (¬ ∃ es, IsXml pieces b es) →
      (RelsComplete (parsePart pieces b).events →
        readArchive env lib search reMatch toInt pieces a z = .error .runtimeError) ∧
      (¬ RelsComplete (parsePart pieces b).events →
        readArchive env lib search reMatch toInt pieces a z = .error .keyError)) := by
  unfold readArchive
  rw [hk]
  simp only
  refine ⟨fun h => by rw [h]; rfl, fun b hb hx => ?_⟩
  rw [hb]
  simp only [openPart]
  obtain ⟨_, h2, h3⟩ := C12_part_exact pieces b
  exact ⟨fun hc => by rw [h3.mpr ⟨hc, hx⟩], fun hc => by rw [h2.mpr hc]⟩

example : exReadZip (exWith "xl/_rels/workbook.xml.rels" "<Relationships>") {} = .error .runtimeError ∧
    exReadZip (exWith "xl/_rels/workbook.xml.rels" "<a><Relationship Id='r' Target='t'/>") {} = .error .keyError ∧
    exReadZip (exZip.filter fun e => e.1 ≠ xlsxRelsName) {} = .error .keyError := by
  decide +kernel

end Rxls
