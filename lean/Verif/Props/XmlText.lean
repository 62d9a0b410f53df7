import Verif.Lemmas.XmlWrite
import Verif.Spec.Archive
import Verif.Lemmas.XmlCut
import Verif.Lemmas.XmlOnly

/-! # Property C84: XML documents -/

namespace Rxls

/-- C84.  A document that is written correctly, in whatever way (declaration, comments, processing instructions, quotation
marks, white space in tags, entities, character references, CDATA sections, line ends), gives the events it means. -/
theorem C84_document (pieces : Str → List Str) (x : XmlForm) (h : x.Ok) (s : Str) (hs : LineEnds s x.text) :
    parseXml pieces s = ⟨x.events pieces, false⟩ := by
  have hs := (lineEnds_iff _ _).mp hs
  obtain ⟨k, e1⟩ := run_misc (pieces := pieces) x.pre h.pre {} 0 rfl rfl
  obtain ⟨j, e2⟩ := run_root (pieces := pieces) x.body h.body h.root h.brackets k
  obtain ⟨j', e3⟩ := run_misc (pieces := pieces) x.post h.post
    ⟨.content j, [], true, [], pieceEvents (textEvents pieces) [] x.body⟩ j rfl rfl
  unfold parseXml
  rw [hs, dropDecl_form x h]
  simp only
  have : ({} : XState).run pieces (x.pre.text ++ (x.body.flatMap Piece.text ++ x.post.text)) =
      ⟨.content j', [], true, [], pieceEvents (textEvents pieces) [] x.body⟩ := by
    rw [xmlRun_append, e1, xmlRun_append, e2, e3]
  rw [show (x.pre.text ++ (x.body.flatMap Piece.text ++ x.post.text)).foldl (XState.step pieces) {} = _ from this]
  rfl

/-- C84.  A document cut off inside its root element is an error, and the events before the error are the first events of
the document. -/
theorem C84_cut (pieces : Str → List Str) (x : XmlForm) (h : x.Ok) (s p q : Str) (he : LineEnds s p)
    (hs : p ++ q = x.text) (hq : x.post.text.length < q.length) :
    (parseXml pieces s).bad = true ∧ (parseXml pieces s).events <+: x.events pieces := by
  have hd := dropDecl_form x h
  unfold parseXml
  rw [(lineEnds_iff _ _).mp he]
  unfold XmlForm.text at hs hd
  cases hx : x.decl with
  | none =>
    rw [hx, declText, List.nil_append] at hs hd
    have e : dropDecl p = some p := by
      apply dropDecl_none
      intro c t hp
      cases hc : xmlWs c
      · rfl
      · exfalso
        rw [← hs, hp] at hd
        simp only [List.cons_append, dropDecl, hc, if_true] at hd
        obtain ⟨u, hu⟩ := afterPi_some _ _ hd
        have := congrArg List.length hu
        simp at this
        omega
    obtain ⟨h1, h2⟩ := cut_main (pieces := pieces) x h p q hs hq
    rw [e]
    exact ⟨by simp only [show p.foldl (XState.step pieces) {} = ({} : XState).run pieces p from rfl, h1, Bool.not_false], h2⟩
  | some d =>
    obtain ⟨⟨c, r, rfl, hc⟩, hi⟩ := h.decl d hx
    have hr : ¬ ['?', '>'] <:+: r := fun hh => hi (hh.trans ⟨[c], [], by simp⟩)
    rw [hx] at hs
    set rest := x.pre.text ++ (x.body.flatMap Piece.text ++ x.post.text) with hrest
    have ed : declText (some (c :: r)) = '<' :: '?' :: 'x' :: 'm' :: 'l' :: c :: (r ++ ['?', '>']) := by simp [declText]
    rw [ed] at hs
    by_cases hl : p.length < ('<' :: '?' :: 'x' :: 'm' :: 'l' :: c :: (r ++ ['?', '>'])).length
    · obtain ⟨q1, hq1⟩ : p <+: '<' :: '?' :: 'x' :: 'm' :: 'l' :: c :: (r ++ ['?', '>']) :=
        List.prefix_of_prefix_length_le ⟨q, hs⟩ ⟨rest, rfl⟩ (by omega)
      have hq1n : q1 ≠ [] := by
        rintro rfl
        rw [List.append_nil] at hq1
        rw [hq1] at hl
        omega
      rcases cut_decl (pieces := pieces) c r p q1 hc hr hq1 hq1n with e | ⟨e, e1, e2⟩
      · rw [e]
        exact ⟨rfl, List.nil_prefix⟩
      · rw [e]
        simp only [show p.foldl (XState.step pieces) {} = ({} : XState).run pieces p from rfl, e1, e2, Bool.not_false]
        exact ⟨trivial, List.nil_prefix⟩
    · obtain ⟨p', hp'⟩ : '<' :: '?' :: 'x' :: 'm' :: 'l' :: c :: (r ++ ['?', '>']) <+: p :=
        List.prefix_of_prefix_length_le ⟨rest, rfl⟩ ⟨q, hs⟩ (by omega)
      rw [← hp', List.append_assoc] at hs
      have hs' := List.append_cancel_left hs
      obtain ⟨h1, h2⟩ := cut_main (pieces := pieces) x h p' q (by rw [hs', hrest]) hq
      have e : dropDecl p = some p' := by
        rw [← hp']
        simp only [List.cons_append, List.append_assoc, List.nil_append, dropDecl, hc, if_true]
        exact afterPi_append r p' hr
      rw [e]
      exact ⟨by simp only [show p'.foldl (XState.step pieces) {} = ({} : XState).run pieces p' from rfl, h1, Bool.not_false],
        h2⟩

/-- C84.  The same from the bytes of the part. -/
theorem C84_bytes (pieces : Str → List Str) (x : XmlForm) (h : x.Ok) (s : Str) (hs : LineEnds s x.text) (mark : Bool) :
    parsePart pieces (utf8Bytes mark s) = ⟨x.events pieces, false⟩ := by
  have hdoc := C84_document pieces x h s hs
  have hb : utf8Bytes mark s =
      ((if mark then [Char.ofNat 0xFEFF] else []) ++ s).flatMap String.utf8EncodeChar := by
    unfold utf8Bytes
    rw [List.flatMap_append]
    congr 1
    cases mark
    · rfl
    · decide
  have hm : dropMark ((if mark then [Char.ofNat 0xFEFF] else []) ++ s) = s := by
    cases mark
    · rw [if_neg (by decide), List.nil_append]
      apply dropMark_none
      rintro c t rfl hc
      -- a document cannot start with the mark
      have hce : c = Char.ofNat 0xFEFF := by
        rw [← Char.ofNat_toNat c, hc]
      subst hce
      have hn : normEol (Char.ofNat 0xFEFF :: t) = Char.ofNat 0xFEFF :: normEol t := by
        rw [normEol.eq_def]
        simp only
        rw [if_neg (by decide)]
      have hdd : dropDecl (Char.ofNat 0xFEFF :: normEol t) = some (Char.ofNat 0xFEFF :: normEol t) := by
        apply dropDecl_none
        intro c u hu
        simp only [List.cons.injEq] at hu
        exact absurd hu.1 (by decide)
      have hbad : (parseXml pieces (Char.ofNat 0xFEFF :: t)).bad = true := by
        unfold parseXml
        rw [hn, hdd]
        simp only [List.foldl_cons]
        have e : ({} : XState).step pieces (Char.ofNat 0xFEFF) = { mode := .dead } := by
          rw [step_ok (by decide)]
          rfl
        rw [e]
        have dead : ∀ (u : Str), (({ mode := .dead } : XState).run pieces u) = { mode := .dead } := by
          intro u
          induction u with
          | nil => rfl
          | cons a u ih =>
            rw [xmlRun_cons]
            have : ({ mode := .dead } : XState).step pieces a = { mode := .dead } := by
              unfold XState.step
              split <;> rfl
            rw [this, ih]
        rw [show (normEol t).foldl (XState.step pieces) { mode := .dead } = _ from dead (normEol t)]
        rfl
      rw [hdoc] at hbad
      cases hbad
    · rfl
  unfold parsePart
  rw [hb, utf8Run_encode _ _ (le_refl _)]
  simp only [hm, hdoc]
  rfl

/-- C84.  Exactly the documents are accepted: a part is read without an error, with these events, when and only when its
bytes are a well-formed document in UTF-8 that means them. -/
theorem C84_exact (pieces : Str → List Str) (b : Bytes) (es : List Xml) :
    parsePart pieces b = ⟨es, false⟩ ↔ IsXml pieces b es := by
  constructor
  · intro h
    unfold parsePart at h
    simp only [XmlDoc.mk.injEq, Bool.or_eq_false_iff, Bool.not_eq_false'] at h
    obtain ⟨h1, h2, h3⟩ := h
    have hb := utf8Run_inv b.length b (utf8Run b.length b).1 (Prod.ext rfl h3)
    obtain ⟨x, hx, ht⟩ := parse_only _ h2
    have hd := C84_document pieces x hx _ ((lineEnds_iff _ _).mpr ht.symm)
    rw [hd] at h1
    generalize (utf8Run b.length b).1 = s at *
    have hl := (lineEnds_iff _ _).mpr ht.symm
    cases s with
    | nil => exact ⟨x, [], false, hx, hl, by simpa [utf8Bytes] using hb, h1⟩
    | cons c s =>
      by_cases hc : c.toNat = 0xFEFF
      · rw [dropMark, if_pos hc] at hl
        refine ⟨x, s, true, hx, hl, ?_, h1⟩
        have hce : c = Char.ofNat 0xFEFF := by rw [← Char.ofNat_toNat c, hc]
        rw [hb, hce, List.flatMap_cons]
        have : String.utf8EncodeChar (Char.ofNat 0xFEFF) = [0xEF, 0xBB, 0xBF] := by decide
        rw [this]
        rfl
      · rw [dropMark, if_neg hc] at hl
        exact ⟨x, c :: s, false, hx, hl, by simpa [utf8Bytes] using hb, h1⟩
  · rintro ⟨x, s, mark, h1, h2, rfl, rfl⟩
    exact C84_bytes pieces x h1 s h2 mark

/-- A `>` in a text, hexadecimal digits in both cases and a line end of two characters make a document; an end tag for
another element does not. -/
example :
    IsXml (fun s => [s]) (utf8Bytes false "<a>]>&#xaB;\r\n</a>".toList)
      [.start ['a'] [], .text [']', '>', Char.ofNat 0xAB, '\n'], .close ['a']] ∧
    ∀ es, ¬ IsXml (fun s => [s]) (utf8Bytes false "<a></b>".toList) es := by
  refine ⟨(C84_exact _ _ _).mp (by decide +kernel), fun es h => ?_⟩
  have h1 := congrArg XmlDoc.bad ((C84_exact _ _ _).mpr h)
  have h2 : (parsePart (fun s => [s]) (utf8Bytes false "<a></b>".toList)).bad = true := by decide +kernel
  rw [h2] at h1
  cases h1

/-- C84.  The character classes of the recommendation: white space (section 2.3), characters (section 2.2), and names, as
far as they are in ASCII. -/
theorem C84_classes (c : Char) :
    (xmlWs c = true ↔ c.toNat ∈ [0x20, 0x9, 0xD, 0xA]) ∧
    (xmlChar c = true ↔ c.toNat ∈ [0x9, 0xA, 0xD] ∨ (0x20 ≤ c.toNat ∧ c.toNat ≤ 0xD7FF) ∨
      (0xE000 ≤ c.toNat ∧ c.toNat ≤ 0xFFFD) ∨ (0x10000 ≤ c.toNat ∧ c.toNat ≤ 0x10FFFF)) ∧
    (c.toNat < 0x80 →
      (nameStart c = true ↔ c ∈ ":_ABCDEFGHIJKLMNOPQRSTUVWXYZabcdefghijklmnopqrstuvwxyz".toList) ∧
      (nameChar c = true ↔ nameStart c = true ∨ c ∈ "-.0123456789".toList)) ∧
    (0x80 ≤ c.toNat → nameStart c = true ∧ nameChar c = true) := by
  have hn : ∀ d : Char, c = d ↔ c.toNat = d.toNat := fun d =>
    ⟨fun e => by rw [e], fun e => by rw [← Char.ofNat_toNat c, e, Char.ofNat_toNat]⟩
  refine ⟨?_, ?_, ?_, ?_⟩
  · simp only [xmlWs, Bool.or_eq_true, beq_iff_eq, List.mem_cons, List.not_mem_nil, or_false, hn]
    have h1 : ' '.toNat = 0x20 := rfl
    have h2 : '\t'.toNat = 9 := rfl
    have h3 : '\n'.toNat = 10 := rfl
    have h4 : '\r'.toNat = 13 := rfl
    rw [h1, h2, h3, h4]
    omega
  · have hv : c.toNat < 0xD800 ∨ (0xDFFF < c.toNat ∧ c.toNat < 0x110000) := c.valid
    simp only [xmlChar, Bool.or_eq_true, beq_iff_eq, Bool.and_eq_true, decide_eq_true_eq, List.mem_cons, List.not_mem_nil,
      or_false]
    omega
  · intro hc
    have key : ∀ n < 0x80,
        (nameStart (Char.ofNat n) = true ↔ Char.ofNat n ∈ ":_ABCDEFGHIJKLMNOPQRSTUVWXYZabcdefghijklmnopqrstuvwxyz".toList) ∧
        (nameChar (Char.ofNat n) = true ↔ nameStart (Char.ofNat n) = true ∨ Char.ofNat n ∈ "-.0123456789".toList) := by
      decide +kernel
    have := key c.toNat hc
    rwa [Char.ofNat_toNat] at this
  · intro hc
    have : nameStart c = true := by
      unfold nameStart
      simp [hc]
    exact ⟨this, nameStart_name this⟩

/-- C84.  Every sequence of events of a document is read back from the bytes a writer makes of it. -/
theorem C84_roundtrip (pieces : Str → List Str) (hb : Buffered pieces) (es : List Xml) (h : XmlTree es) :
    parsePart pieces (xmlBytes es) = ⟨es, false⟩ := by
  obtain ⟨h1, h2, h3⟩ := xmlForm_ok es h
  have := C84_bytes pieces (xmlForm es) h1 (xmlForm es).text ((lineEnds_iff _ _).mpr (normEol_plain _ h2)) false
  rw [h3 pieces hb] at this
  exact this

/-- A document with most of what XML allows; the line ends are CR LF in the file. -/
example :
    parsePart (fun s => [s]) (utf8Bytes true (("<?xml version=\"1.0\"?>\r\n<!-- a -->\r\n<sst n = 'a&#10;&quot;\r\nb' m=\"é\" >" ++
      "<si><t>x &lt; y<!-- not text --><![CDATA[ <&> ]]>&#x41;</t></si><si/></sst >\r\n").toList)) =
    ⟨[.start "sst".toList [("n".toList, "a\n\" b".toList), ("m".toList, "é".toList)],
      .start "si".toList [], .start "t".toList [], .text "x < y <&> A".toList, .close "t".toList, .close "si".toList,
      .start "si".toList [], .close "si".toList, .close "sst".toList], false⟩ := by
  decide +kernel

/-- Its first half, and documents that are not well-formed: wrong end tag, attribute twice, `]]>` in text, two roots,
unknown entity, forbidden character, no blank between attributes, nothing, text outside the root, a byte that is not
UTF-8. -/
example :
    parsePart (fun s => [s]) (utf8Bytes false "<sst><si><t>x</t></si><si><t".toList) =
      ⟨[.start "sst".toList [], .start "si".toList [], .start "t".toList [], .text "x".toList, .close "t".toList,
        .close "si".toList, .start "si".toList []], true⟩ ∧
    (["<a></b>", "<a x='1' x='2'/>", "<a>]]></a>", "<a/><b/>", "<a>&nbsp;</a>", "<a>&#1;</a>", "<a x='1'y='2'/>", "",
      "<a/>x"].all fun s => (parsePart (fun s => [s]) (utf8Bytes false s.toList)).bad) = true ∧
    parsePart (fun s => [s]) [60, 97, 62, 255, 60, 47, 97, 62] = ⟨[.start "a".toList []], true⟩ := by
  decide +kernel

/-- The events of a worksheet, written and read. -/
example :
    let es : List Xml := [.start "row".toList [("r".toList, "1".toList)], .start "c".toList [("t".toList, "a\tb\"<".toList)],
      .text "1 < 2\r\n]]>".toList, .close "c".toList, .close "row".toList]
    (xmlForm es).text = ("<row r=\"1\"><c t=\"a&#9;b&quot;&lt;\">1 &lt; 2&#13;\n]]&gt;</c></row>").toList ∧
    parsePart (fun s => [s]) (xmlBytes es) = ⟨es, false⟩ := by
  decide +kernel

end Rxls
