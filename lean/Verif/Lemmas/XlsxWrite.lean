import Verif.Spec.XlsxWrite
import Verif.Lemmas.XmlWrite
import Verif.Lemmas.XGrid
import Verif.Lemmas.XlsxParts

/-! # Workbooks of the reference writer -/

namespace Rxls

/-! ## Trees -/

/-- Events that can stand inside an element. -/
structure Tidy (es : List Xml) : Prop where
  writable : ∀ e ∈ es, e.Writable
  closes : ∀ t stack rest, Closes (t :: stack) rest → Closes (t :: stack) (es ++ rest)
  texts : ∀ rest, NoTwoTexts rest → NoTwoTexts (es ++ rest)

theorem tidy_nil : Tidy [] := ⟨by simp, fun _ _ _ h => h, fun _ h => h⟩

theorem tidy_append {a b : List Xml} (ha : Tidy a) (hb : Tidy b) : Tidy (a ++ b) := by
  refine ⟨fun e he => ?_, fun t stack rest h => ?_, fun rest h => ?_⟩
  · rcases List.mem_append.mp he with h | h
    exacts [ha.writable e h, hb.writable e h]
  · rw [List.append_assoc]
    exact ha.closes _ _ _ (hb.closes _ _ _ h)
  · rw [List.append_assoc]
    exact ha.texts _ (hb.texts _ h)

theorem tidy_flatMap {α : Type} (l : List α) (f : α → List Xml) (h : ∀ x ∈ l, Tidy (f x)) : Tidy (l.flatMap f) := by
  induction l with
  | nil => exact tidy_nil
  | cons x l ih =>
    rw [List.flatMap_cons]
    exact tidy_append (h x (by simp)) (ih fun y hy => h y (by simp [hy]))

/-- The attributes of an element can be written. -/
def AttsOk (as : List (Str × Str)) : Prop := (as.map (·.1)).Nodup ∧ ∀ a ∈ as, XmlName a.1 ∧ Chars a.2

theorem noTwo_cons (e : Xml) (es : List Xml) (h : ∀ s, e ≠ .text s) (hn : NoTwoTexts es) : NoTwoTexts (e :: es) := by
  cases e with
  | text s => exact absurd rfl (h s)
  | start t as => exact hn
  | close t => exact hn

theorem tidy_elem {t : Str} {as : List (Str × Str)} {body : List Xml} (ht : XmlName t) (ha : AttsOk as) (hb : Tidy body) :
    Tidy (elem t as body) := by
  unfold elem
  refine ⟨fun e he => ?_, fun u stack rest h => ?_, fun rest h => ?_⟩
  · simp only [List.mem_cons, List.mem_append, List.not_mem_nil, or_false] at he
    rcases he with rfl | he | rfl
    · exact ⟨ht, ha.1, ha.2⟩
    · exact hb.writable e he
    · exact ht
  · rw [List.cons_append, List.append_assoc]
    exact hb.closes t (u :: stack) _ ⟨rfl, h⟩
  · rw [List.cons_append, List.append_assoc]
    exact noTwo_cons _ _ (by simp) (hb.texts _ (noTwo_cons _ _ (by simp) h))

theorem tidy_leaf {t : Str} {as : List (Str × Str)} {s : Str} (ht : XmlName t) (ha : AttsOk as) (hs : TextOk s) :
    Tidy (elem t as [.text s]) := by
  unfold elem
  refine ⟨fun e he => ?_, fun u stack rest h => ?_, fun rest h => ?_⟩
  · simp only [List.mem_cons, List.mem_append, List.not_mem_nil, or_false] at he
    rcases he with rfl | rfl | rfl
    · exact ⟨ht, ha.1, ha.2⟩
    · exact hs
    · exact ht
  · exact ⟨rfl, h⟩
  · exact h

theorem tree_elem {t : Str} {as : List (Str × Str)} {body : List Xml} (ht : XmlName t) (ha : AttsOk as) (hb : Tidy body) :
    XmlTree (elem t as body) := by
  have h := tidy_elem ht ha hb
  refine ⟨h.writable, ⟨t, as, _, rfl, hb.closes t [] _ ⟨rfl, rfl⟩⟩, ?_⟩
  have := h.texts [] trivial
  rwa [List.append_nil] at this

/-! ## Names and numbers -/

theorem xmlName_of (n : Str) (h : (match n with | c :: _ => nameStart c | [] => false) && n.all (fun c => nameChar c && xmlChar c)) :
    XmlName n := by
  rw [Bool.and_eq_true] at h
  cases n with
  | nil => simp at h
  | cons c t =>
    refine ⟨⟨c, t, rfl, h.1⟩, fun d hd => ?_⟩
    have := List.all_eq_true.mp h.2 d hd
    simpa using this

theorem chars_of (s : Str) (h : s.all xmlChar = true) : Chars s := fun c hc => List.all_eq_true.mp h c hc

theorem chars_append {a b : Str} (ha : Chars a) (hb : Chars b) : Chars (a ++ b) := by
  intro c hc
  rcases List.mem_append.mp hc with h | h
  exacts [ha c h, hb c h]

theorem pyStr_digit (n : Nat) : ∀ c ∈ pyStr n, 48 ≤ c.toNat ∧ c.toNat ≤ 57 := by
  intro c hc
  unfold pyStr at hc
  have h := Nat.isDigit_of_mem_toDigits (b := 10) (by omega) (by omega) hc
  simp only [Char.isDigit, ge_iff_le, Bool.and_eq_true, decide_eq_true_eq] at h
  exact ⟨by simpa using UInt32.le_iff_toNat_le.mp h.1, by simpa using UInt32.le_iff_toNat_le.mp h.2⟩

theorem xmlChar_ascii (c : Char) (h : 32 ≤ c.toNat ∧ c.toNat ≤ 127) : xmlChar c = true := by
  unfold xmlChar
  simp only [Bool.or_eq_true, Bool.and_eq_true, decide_eq_true_eq, beq_iff_eq]
  right
  refine ⟨⟨h.1, ?_⟩, ?_⟩ <;> simp <;> omega

theorem chars_pyStr (n : Nat) : Chars (pyStr n) := fun c hc => by
  have := pyStr_digit n c hc
  exact xmlChar_ascii c (by omega)

theorem rowDigits_ok (i : Nat) : IsDigits (rowDigits i) := by
  intro x hx
  obtain ⟨c, hc, rfl⟩ := List.mem_map.mp hx
  have := pyStr_digit _ c hc
  rw [UInt8.toNat_ofNat']
  omega

theorem colName_range (n : Nat) : ∀ x ∈ colName n, 65 ≤ x.toNat ∧ x.toNat ≤ 90 := by
  induction n using Nat.strong_induction_on with
  | _ n ih =>
    intro x hx
    rw [colName] at hx
    split at hx
    · simp only [List.mem_singleton] at hx
      subst hx
      rw [UInt8.toNat_ofNat']
      omega
    · rcases List.mem_append.mp hx with h | h
      · exact ih _ (by omega) x h
      · simp only [List.mem_singleton] at h
        subst h
        rw [UInt8.toNat_ofNat']
        omega

theorem chars_ref (n : Nat) (i : Nat) : Chars ((colName n ++ rowDigits i).map fun x => Char.ofNat x.toNat) := by
  intro c hc
  obtain ⟨x, hx, rfl⟩ := List.mem_map.mp hc
  have : 48 ≤ x.toNat ∧ x.toNat ≤ 90 := by
    rcases List.mem_append.mp hx with h | h
    · have := colName_range n x h
      omega
    · have := rowDigits_ok i x h
      omega
  have hc : (Char.ofNat x.toNat).toNat = x.toNat :=
    (by decide : ∀ m < 128, (Char.ofNat m).toNat = m) _ (by omega)
  exact xmlChar_ascii _ (by rw [hc]; omega)

/-! ## The parts are documents -/

theorem attsOk_nil : AttsOk [] := ⟨by simp, by simp⟩

theorem name_tags : XmlName tagWorksheet ∧ XmlName tagSheetData ∧ XmlName tagSst ∧ XmlName tagT ∧ XmlName tagWorkbook ∧
    XmlName tagSheets ∧ XmlName tagStyleSheet ∧ XmlName tagNumFmts ∧ XmlName tagCellXfs ∧ XmlName tagRelationships ∧
    XmlName attSheetId ∧ XmlName tagC ∧ XmlName tagV ∧ XmlName tagRow ∧ XmlName tagSi ∧ XmlName tagXf ∧ XmlName tagNumFmt ∧
    XmlName tagSheet ∧ XmlName attR ∧ XmlName attT ∧ XmlName attS ∧ XmlName attXfId ∧ XmlName attNumFmtId ∧
    XmlName attFormatCode ∧ XmlName attRId ∧ XmlName attName ∧ XmlName tagRelationship ∧ XmlName attId ∧ XmlName attType ∧
    XmlName attTarget := by
  refine ⟨?_, ?_, ?_, ?_, ?_, ?_, ?_, ?_, ?_, ?_, ?_, ?_, ?_, ?_, ?_, ?_, ?_, ?_, ?_, ?_, ?_, ?_, ?_, ?_, ?_, ?_, ?_, ?_, ?_, ?_⟩ <;>
    exact xmlName_of _ (by decide)

theorem chars_relId (i : Nat) : Chars (relIdOf i) := chars_append (chars_of _ (by decide)) (chars_pyStr _)

theorem chars_target (i : Nat) : Chars (sheetTarget i) :=
  chars_append (chars_append (chars_of _ (by decide)) (chars_pyStr _)) (chars_of _ (by decide))

theorem relsDoc_tree (b : WBook) : XmlTree b.relsDoc := by
  obtain ⟨-, -, -, -, -, -, -, -, -, t1, -, -, -, -, -, -, -, -, -, -, -, -, -, -, -, -, t2, a1, a2, a3⟩ := name_tags
  refine tree_elem t1 attsOk_nil (tidy_flatMap _ _ fun p _ => tidy_elem t2
    ⟨by simp only [List.map_cons, List.map_nil]; decide, ?_⟩ tidy_nil)
  intro a ha
  simp only [List.mem_cons, List.not_mem_nil, or_false] at ha
  rcases ha with rfl | rfl | rfl
  exacts [⟨a1, chars_relId _⟩, ⟨a2, chars_of _ (by decide +kernel)⟩, ⟨a3, chars_target _⟩]

theorem workbookDoc_tree (b : WBook) (h : ∀ s ∈ b.sheets, Chars s.1) : XmlTree b.workbookDoc := by
  obtain ⟨-, -, -, -, t1, t2, -, -, -, -, a2, -, -, -, -, -, -, t3, -, -, -, -, -, -, a3, a1, -⟩ := name_tags
  refine tree_elem t1 attsOk_nil (tidy_elem t2 attsOk_nil (tidy_flatMap _ _ fun p hp => tidy_elem t3 ⟨?_, ?_⟩ tidy_nil))
  · simp only [List.map_cons, List.map_nil]
    decide
  · intro a ha
    simp only [List.mem_cons, List.not_mem_nil, or_false] at ha
    rcases ha with rfl | rfl | rfl
    exacts [⟨a1, h _ (List.fst_mem_of_mem_zipIdx hp)⟩, ⟨a2, chars_pyStr _⟩, ⟨a3, chars_relId _⟩]

theorem stylesDoc_tree (b : WBook) (h : ∀ p ∈ b.codes, Chars p.2) : XmlTree b.stylesDoc := by
  obtain ⟨-, -, -, -, -, -, t1, t2, t3, -, -, -, -, -, -, t4, t5, -, -, -, -, a3, a1, a2, -⟩ := name_tags
  refine tree_elem t1 attsOk_nil (tidy_append
    (tidy_elem t2 attsOk_nil (tidy_flatMap _ _ fun p hp => tidy_elem t5 ⟨?_, ?_⟩ tidy_nil))
    (tidy_elem t3 attsOk_nil (tidy_flatMap _ _ fun n hn => tidy_elem t4 ⟨?_, ?_⟩ tidy_nil)))
  · simp only [List.map_cons, List.map_nil]
    decide
  · intro a ha
    simp only [List.mem_cons, List.not_mem_nil, or_false] at ha
    rcases ha with rfl | rfl
    exacts [⟨a1, chars_pyStr _⟩, ⟨a2, h p hp⟩]
  · simp only [List.map_cons, List.map_nil]
    decide
  · intro a ha
    simp only [List.mem_cons, List.not_mem_nil, or_false] at ha
    rcases ha with rfl | rfl
    exacts [⟨a1, chars_pyStr _⟩, ⟨a3, chars_of _ (by decide)⟩]

theorem sharedDoc_tree (b : WBook) (h : ∀ s ∈ b.shared, TextOk s) : XmlTree b.sharedDoc := by
  obtain ⟨-, -, t1, t3, -, -, -, -, -, -, -, -, -, -, t2, -⟩ := name_tags
  refine tree_elem t1 attsOk_nil (tidy_flatMap _ _ fun x hx => ?_)
  obtain ⟨s, hs, rfl⟩ := List.mem_map.mp hx
  exact tidy_elem t2 attsOk_nil (tidy_leaf t3 attsOk_nil (h s hs))

theorem sheetOf_tree (rows : List (List WCell)) (h : ∀ row ∈ rows, ∀ c ∈ row, TextOk c.content.text) :
    XmlTree (sheetOf rows).events := by
  obtain ⟨t1, t2, -, -, -, -, -, -, -, -, -, t3, t4, t5, -, -, -, -, a1, a2, a3, -⟩ := name_tags
  have e : (sheetOf rows).events = elem tagWorksheet [] (elem tagSheetData [] ((sheetOf rows).rows.flatMap XRow.events)) := by
    simp [XSheet.events, sheetOf, elem]
  rw [e]
  refine tree_elem t1 attsOk_nil (tidy_elem t2 attsOk_nil (tidy_flatMap _ _ fun r hr => ?_))
  obtain ⟨⟨row, i⟩, hp, rfl⟩ := List.mem_map.mp hr
  refine tidy_elem (body := (row.map TCell.xml).flatMap XCell.events) t5 ⟨by simp, ?_⟩ (tidy_flatMap _ _ fun x hx => ?_)
  · intro a ha
    simp only [List.mem_cons, List.not_mem_nil, or_false] at ha
    subst ha
    exact ⟨a1, chars_pyStr _⟩
  · obtain ⟨d, hd, rfl⟩ := List.mem_map.mp hx
    have hrow := List.fst_mem_of_mem_zipIdx hp
    obtain ⟨⟨wrow, j⟩, hw, rfl⟩ := List.mem_map.mp hrow
    obtain ⟨c, hc, rfl⟩ := List.mem_map.mp hd
    refine tidy_elem (body := elem tagV [] [.text c.content.text]) t3 ⟨?_, ?_⟩
      (tidy_leaf t4 attsOk_nil (h _ (List.fst_mem_of_mem_zipIdx hw) c hc))
    · obtain ⟨col, style, content⟩ := c
      cases content <;> cases style
      · exact (by decide : [attR, attT].Nodup)
      · exact (by decide : [attR, attT, attS].Nodup)
      · exact (by decide : [attR].Nodup)
      · exact (by decide : [attR, attS].Nodup)
    · obtain ⟨col, style, content⟩ := c
      cases content <;> cases style <;> intro a ha
      · change a ∈ [(attR, _), (attT, ['s'])] at ha
        simp only [List.mem_cons, List.not_mem_nil, or_false] at ha
        rcases ha with rfl | rfl
        exacts [⟨a1, chars_ref _ _⟩, ⟨a2, chars_of _ (by decide)⟩]
      · change a ∈ [(attR, _), (attT, ['s']), (attS, _)] at ha
        simp only [List.mem_cons, List.not_mem_nil, or_false] at ha
        rcases ha with rfl | rfl | rfl
        exacts [⟨a1, chars_ref _ _⟩, ⟨a2, chars_of _ (by decide)⟩, ⟨a3, chars_pyStr _⟩]
      · change a ∈ [(attR, _)] at ha
        simp only [List.mem_cons, List.not_mem_nil, or_false] at ha
        subst ha
        exact ⟨a1, chars_ref _ _⟩
      · change a ∈ [(attR, _), (attS, _)] at ha
        simp only [List.mem_cons, List.not_mem_nil, or_false] at ha
        rcases ha with rfl | rfl
        exacts [⟨a1, chars_ref _ _⟩, ⟨a3, chars_pyStr _⟩]

/-! ## What is in the parts -/

theorem xmlBytes_isXml {pieces : Str → List Str} (hb : Buffered pieces) {es : List Xml} (h : XmlTree es) :
    IsXml pieces (xmlBytes es) es := by
  obtain ⟨h1, h2, h3⟩ := xmlForm_ok es h
  exact ⟨xmlForm es, (xmlForm es).text, false, h1, (lineEnds_iff _ _).mpr (normEol_plain _ h2), rfl, h3 pieces hb⟩

theorem has_of_nodup {z : Archive} (hz : (z.map (·.1)).Nodup) {n : Str} {b : Bytes} (h : (n, b) ∈ z) : z.Has n b := by
  unfold Archive.Has
  induction z with
  | nil => simp at h
  | cons e z ih =>
    simp only [List.map_cons, List.nodup_cons] at hz
    rw [List.filter_cons]
    rcases List.mem_cons.mp h with rfl | h'
    · simp only [decide_true, if_true, List.cons.injEq, true_and, List.filter_eq_nil_iff, decide_eq_true_eq]
      intro x hx e
      exact hz.1 (List.mem_map.mpr ⟨x, hx, e⟩)
    · have : e.1 ≠ n := fun e' => hz.1 (List.mem_map.mpr ⟨_, h', e'.symm⟩)
      simp only [this, decide_false, Bool.false_eq_true, if_false]
      exact ih hz.2 h'

theorem filterMap_elem {β : Type} (f : Xml → Option β) (hf : ∀ t, f (.close t) = none) (t : Str) (as : List (Str × Str))
    (body : List Xml) : (elem t as body).filterMap f = (f (.start t as)).toList ++ body.filterMap f := by
  unfold elem
  rw [List.filterMap_cons, List.filterMap_append]
  cases h : f (.start t as) <;> simp [hf]

theorem filterMap_elems {α β : Type} (f : Xml → Option β) (l : List α) (g : α → List Xml) (h : α → List β)
    (hg : ∀ x, (g x).filterMap f = h x) : (l.flatMap g).filterMap f = l.flatMap h := by
  induction l with
  | nil => rfl
  | cons x l ih => rw [List.flatMap_cons, List.filterMap_append, ih, hg, List.flatMap_cons]

theorem flatMap_one {α β : Type} (l : List α) (h : α → β) : (l.flatMap fun x => [h x]) = l.map h := by
  induction l with
  | nil => rfl
  | cons x l ih => rw [List.flatMap_cons, ih]; rfl

theorem flatMap_none {α β : Type} (l : List α) : (l.flatMap fun _ => ([] : List β)) = [] := by
  induction l with
  | nil => rfl
  | cons x l ih => rw [List.flatMap_cons, ih]; rfl

theorem relationships_written (b : WBook) :
    relationships b.relsDoc = b.sheets.zipIdx.map fun p => ⟨relIdOf p.2, worksheetType, sheetTarget p.2⟩ := by
  unfold relationships WBook.relsDoc
  rw [filterMap_elem _ (fun _ => rfl), ← flatMap_one]
  refine (filterMap_elems _ _ _ _ fun x => ?_)
  rw [filterMap_elem _ (fun _ => rfl)]
  have : lastSegment worksheetUri = worksheetType := by decide +kernel
  simp [attrGet, attId, attType, attTarget, this]

theorem relsComplete_written (b : WBook) : RelsComplete b.relsDoc := by
  intro t a hm ht
  subst ht
  simp only [WBook.relsDoc, elem, List.mem_cons, List.mem_append, List.mem_flatMap, List.not_mem_nil, or_false, Xml.start.injEq,
    reduceCtorEq, List.nil_append] at hm
  rcases hm with ⟨h, -⟩ | ⟨p, -, -, rfl⟩
  · exact absurd h (by decide)
  · simp [attrGet, attId, attType, attTarget]

theorem sheetEntries_written (b : WBook) :
    sheetEntries b.workbookDoc = b.sheets.zipIdx.map fun p => (relIdOf p.2, p.1.1) := by
  unfold sheetEntries WBook.workbookDoc
  rw [filterMap_elem _ (fun _ => rfl), filterMap_elem _ (fun _ => rfl), ← flatMap_one]
  refine (filterMap_elems _ _ _ _ fun x => ?_)
  rw [filterMap_elem _ (fun _ => rfl)]
  simp [attrGet, attName, attSheetId, attRId]

theorem sheetsComplete_written (b : WBook) : SheetsComplete b.workbookDoc := by
  intro t a hm ht
  subst ht
  simp only [WBook.workbookDoc, elem, List.mem_cons, List.mem_append, List.mem_flatMap, List.not_mem_nil, or_false, Xml.start.injEq,
    reduceCtorEq, List.nil_append] at hm
  rcases hm with ⟨h, -⟩ | ⟨h, -⟩ | ⟨p, -, -, rfl⟩
  · exact absurd h (by decide)
  · exact absurd h (by decide)
  · simp [attrGet, attName, attSheetId, attRId]

theorem numFmts_written (b : WBook) : numFmts b.stylesDoc = b.codes.map fun p => (pyStr p.1, p.2) := by
  unfold numFmts WBook.stylesDoc
  rw [filterMap_elem _ (fun _ => rfl), List.filterMap_append, filterMap_elem _ (fun _ => rfl), filterMap_elem _ (fun _ => rfl),
    filterMap_elems _ _ _ (fun p => [(pyStr p.1, p.2)]), filterMap_elems _ _ _ (fun p => []), flatMap_one, flatMap_none]
  · simp [tagStyleSheet, tagNumFmts, tagCellXfs, tagNumFmt]
  · intro x
    rw [filterMap_elem _ (fun _ => rfl)]
    simp [tagNumFmt, tagXf]
  · intro x
    rw [filterMap_elem _ (fun _ => rfl)]
    simp [attrGet, attNumFmtId, attFormatCode]

theorem cellFmts_written (b : WBook) : cellFmts b.stylesDoc = b.formats.map pyStr := by
  unfold cellFmts WBook.stylesDoc
  rw [filterMap_elem _ (fun _ => rfl), List.filterMap_append, filterMap_elem _ (fun _ => rfl), filterMap_elem _ (fun _ => rfl),
    filterMap_elems _ b.codes _ (fun p => []), filterMap_elems _ b.formats _ (fun n => [pyStr n]), flatMap_one, flatMap_none]
  · simp [tagStyleSheet, tagNumFmts, tagCellXfs, tagXf]
  · intro x
    rw [filterMap_elem _ (fun _ => rfl)]
    simp [attrGet, attNumFmtId, attXfId]
  · intro x
    rw [filterMap_elem _ (fun _ => rfl)]
    simp [tagNumFmt, tagXf]

theorem stylesComplete_written (b : WBook) : StylesComplete b.stylesDoc := by
  intro t a hm
  simp only [WBook.stylesDoc, elem, List.mem_cons, List.mem_append, List.mem_flatMap, List.not_mem_nil, or_false, Xml.start.injEq,
    reduceCtorEq, List.nil_append, List.append_assoc, List.cons_append, false_or] at hm
  constructor
  · intro ht
    subst ht
    rcases hm with ⟨h, -⟩ | ⟨h, -⟩ | ⟨p, -, -, rfl⟩ | ⟨h, -⟩ | ⟨p, -, h, -⟩
    · exact absurd h (by decide)
    · exact absurd h (by decide)
    · simp [attrGet, attNumFmtId, attFormatCode]
    · exact absurd h (by decide)
    · exact absurd h (by decide)
  · intro ht _
    subst ht
    rcases hm with ⟨h, -⟩ | ⟨h, -⟩ | ⟨p, -, h, -⟩ | ⟨h, -⟩ | ⟨p, -, -, rfl⟩
    · exact absurd h (by decide)
    · exact absurd h (by decide)
    · exact absurd h (by decide)
    · exact absurd h (by decide)
    · simp [attrGet, attNumFmtId]

theorem entry_written (isNull : Str → Bool) (s : Str) (h1 : pyStrip s ≠ []) (h2 : isNull (pyStrip s) = false) :
    (siOf s).entry isNull = some (pyStrip s) := by
  simp [Si.entry, Si.texts, siOf, elem, h1, h2]

end Rxls
