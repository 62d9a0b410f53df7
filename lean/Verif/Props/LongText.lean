import Verif.Spec.LongText
import Verif.Props.EndToEndXlsx

/-! # Property C111: long texts -/

namespace Rxls

/-- Cells dropped that directly follow a cell of the same place. -/
inductive Dup : List Cell → List Cell → Prop
  | nil : Dup [] []
  | keep (c : Cell) {l l' : List Cell} : Dup l l' → Dup (c :: l) (c :: l')
  | drop (c c' : Cell) {l l' : List Cell} : c.row = c'.row → c.col = c'.col → Dup (c :: l) l' → Dup (c :: c' :: l) l'

theorem Dup.empty {l l' : List Cell} (h : Dup l l') : l.isEmpty = l'.isEmpty := by
  induction h with
  | nil => rfl
  | keep => rfl
  | drop c c' _ _ _ ih => simpa using ih

theorem add_eRow {env : Env} {s s' : Series} {c : Cell} (h : s.add env c = .ok s') : (c.row : Int) ≤ s'.eRow := by
  unfold Series.add at h
  split at h
  · cases h; assumption
  · split at h
    · cases h
    · split at h
      · cases h
      · cases h; exact Int.le_refl _

theorem addCell_again {env : Env} {fresh : Series} {cols cols' : Cols} {c c' : Cell} (hr : c.row = c'.row)
    (hc : c.col = c'.col) (h : addCell env fresh cols c = .ok cols') : addCell env fresh cols' c' = .ok cols' := by
  unfold addCell at h
  rw [hc] at h
  split at h
  · rename_i hf
    split at h
    · rename_i s hs
      cases h
      have he := add_eRow hs
      rw [hr] at he
      have : (cols ++ [(c'.col, s)]).find? (fun p => p.1 = c'.col) = some (c'.col, s) := by
        rw [List.find?_append, hf]
        simp
      unfold addCell
      rw [this]
      simp only [Series.add, if_pos he]
      congr 1
      rw [List.map_append]
      congr 1
      · conv_rhs => rw [← List.map_id cols]
        apply List.map_congr_left
        intro q hq
        have := List.find?_eq_none.1 hf q hq
        simp only [decide_eq_true_eq] at this
        simp [this]
      · simp
    · cases h
  · rename_i p hf
    split at h
    · rename_i s hs
      cases h
      have he := add_eRow hs
      rw [hr] at he
      have hp := List.find?_some hf
      simp only [decide_eq_true_eq] at hp
      have key : ∀ l : Cols, (∃ q ∈ l, q.1 = c'.col) →
          (l.map fun q => if q.1 = c'.col then (q.1, s) else q).find? (fun p => p.1 = c'.col) = some (c'.col, s) := by
        intro l
        induction l with
        | nil => simp
        | cons q l ih =>
          intro hq
          by_cases h0 : q.1 = c'.col
          · simp [h0]
          · simp only [List.map_cons, if_neg h0, List.find?_cons, decide_eq_false h0]
            refine ih ?_
            obtain ⟨q', hm, he⟩ := hq
            rcases List.mem_cons.1 hm with rfl | hm
            · exact absurd he h0
            · exact ⟨q', hm, he⟩
      unfold addCell
      rw [key cols ⟨p, List.mem_of_find?_eq_some hf, hp⟩]
      simp only [Series.add, if_pos he]
      congr 1
      rw [List.map_map]
      apply List.map_congr_left
      intro q _
      simp only [Function.comp]
      by_cases h0 : q.1 = c'.col <;> simp [h0]
    · cases h

theorem Dup.collect {env : Env} {fresh : Series} {l l' : List Cell} (h : Dup l l') :
    ∀ cols, Rxls.collect env fresh cols l = Rxls.collect env fresh cols l' := by
  induction h with
  | nil => intro; rfl
  | keep c _ ih =>
    intro cols
    simp only [Rxls.collect]
    split
    · exact ih _
    · rfl
  | drop c c' hr hc _ ih =>
    intro cols
    rw [← ih cols]
    simp only [Rxls.collect]
    split
    · rename_i cols' h
      rw [addCell_again hr hc h]
    · rfl

theorem Dup.readCells {A D : Type} {env : Env} {lib : Lib A D} {search : Str → Option (Str → Bool)}
    {reMatch : Str → Str → Py Bool} {args : ReadArgs D} {fresh : Series} {l l' : List Cell} (h : Dup l l') :
    Rxls.readCells env lib search reMatch args fresh l = Rxls.readCells env lib search reMatch args fresh l' := by
  unfold Rxls.readCells
  rw [h.collect]

theorem runXlsx_firstPieces (styles : List (Str × Nat)) (isNull : Str → Bool) (o : SheetArgs) (bad : Bool) (es : List Xml) :
    ∀ st : XlsxState,
      Dup ((runXlsx styles isNull o bad es st).1.filterMap Ev.cell?)
        ((runXlsx styles isNull o bad (firstPieces isNull false es) st).1.filterMap Ev.cell?) ∧
      ∀ pend : Option Cell,
        (∀ txt, xlsxText isNull o.skipRows o.skipCols st txt = (st, []) ∨
          ∃ c c', pend = some c ∧ xlsxText isNull o.skipRows o.skipCols st txt = (st, [.cell c']) ∧ c.row = c'.row ∧
            c.col = c'.col) →
        Dup (pend.toList ++ (runXlsx styles isNull o bad es st).1.filterMap Ev.cell?)
          (pend.toList ++ (runXlsx styles isNull o bad (firstPieces isNull true es) st).1.filterMap Ev.cell?) := by
  induction es with
  | nil =>
    intro st
    refine ⟨.nil, ?_⟩
    intro pend _
    cases pend with
    | none => exact .nil
    | some c => exact .keep c .nil
  | cons e es ih =>
    intro st
    have keepP : ∀ (pend : Option Cell) {l l'}, Dup l l' → Dup (pend.toList ++ l) (pend.toList ++ l') := by
      intro pend l l' h
      cases pend with
      | none => exact h
      | some c => exact .keep c h
    cases e with
    | start t a =>
      have h : Dup ((runXlsx styles isNull o bad (.start t a :: es) st).1.filterMap Ev.cell?)
          ((runXlsx styles isNull o bad (.start t a :: firstPieces isNull false es) st).1.filterMap Ev.cell?) := by
        rw [runXlsx, runXlsx]
        split
        · exact .nil
        · exact (ih _).1
      exact ⟨h, fun pend _ => keepP pend h⟩
    | close t =>
      have h : Dup ((runXlsx styles isNull o bad (.close t :: es) st).1.filterMap Ev.cell?)
          ((runXlsx styles isNull o bad (.close t :: firstPieces isNull false es) st).1.filterMap Ev.cell?) := by
        have hcb : ((xlsxEnd o.keepEmpty st t).2.1).filterMap Ev.cell? = [] := by
          unfold xlsxEnd
          split
          · rfl
          · split <;> rfl
        rw [runXlsx, runXlsx]
        simp only
        split
        · rw [hcb]; exact .nil
        · rw [List.filterMap_append, List.filterMap_append, hcb]
          exact (ih _).1
      exact ⟨h, fun pend _ => keepP pend h⟩
    | text s =>
      constructor
      · rw [firstPieces]
        simp only [Bool.false_eq_true, if_false]
        by_cases hs : pyStrip s ≠ [] ∧ isNull (pyStrip s) = false
        · have hd : (decide (pyStrip s ≠ []) && !isNull (pyStrip s)) = true := by simp [hs.1, hs.2]
          rw [hd, runXlsx, runXlsx]
          simp only [List.filterMap_append]
          -- what this text does in this state
          by_cases hrow : st.row < o.skipRows
          · have e0 : ∀ txt, xlsxText isNull o.skipRows o.skipCols st txt = (st, []) := by
              intro txt; simp [xlsxText, hrow]
            simp only [e0]
            exact (ih st).2 none fun txt => .inl (e0 txt)
          · by_cases htag : st.lTag = some tagV
            · by_cases hcol : o.skipCols.isEmpty = true ∨
                  o.skipCols.contains (colIdx (st.lCol.flatMap String.utf8EncodeChar)) = false
              · have e0 : xlsxText isNull o.skipRows o.skipCols st s = ({ st with empty := false },
                    [.cell ⟨st.cRow - o.skipRows, colIdx (st.lCol.flatMap String.utf8EncodeChar), st.cTyp,
                      .text (pyStrip s)⟩]) := by
                  unfold xlsxText
                  rw [if_neg hrow, if_pos ⟨htag, hs.1⟩, if_neg (by simp [hs.2])]
                  simp only
                  rw [if_pos hcol]
                simp only [e0]
                refine (ih { st with empty := false }).2 (some ⟨st.cRow - o.skipRows,
                  colIdx (st.lCol.flatMap String.utf8EncodeChar), st.cTyp, .text (pyStrip s)⟩) ?_
                intro txt
                unfold xlsxText
                rw [if_neg hrow]
                by_cases h1 : pyStrip txt ≠ []
                · rw [if_pos ⟨htag, h1⟩]
                  by_cases h2 : isNull (pyStrip txt) = true
                  · rw [if_pos h2]; exact .inl rfl
                  · rw [if_neg h2]
                    simp only
                    rw [if_pos hcol]
                    exact .inr ⟨_, _, rfl, rfl, rfl, rfl⟩
                · rw [if_neg (fun h => h1 h.2)]; exact .inl rfl
              · have e0 : ∀ txt, xlsxText isNull o.skipRows o.skipCols st txt = (st, []) := by
                  intro txt
                  unfold xlsxText
                  rw [if_neg hrow]
                  split
                  · split
                    · rfl
                    · simp only
                      rw [if_neg hcol]
                  · rfl
                simp only [e0]
                exact (ih st).2 none fun txt => .inl (e0 txt)
            · have e0 : ∀ txt, xlsxText isNull o.skipRows o.skipCols st txt = (st, []) := by
                intro txt; simp [xlsxText, htag]
              simp only [e0]
              exact (ih st).2 none fun txt => .inl (e0 txt)
        · have hd : (decide (pyStrip s ≠ []) && !isNull (pyStrip s)) = false := by
            by_cases h0 : pyStrip s = []
            · simp [h0]
            · simp only [ne_eq, h0, not_false_eq_true, true_and, Bool.not_eq_false] at hs
              simp [hs]
          have e0 : xlsxText isNull o.skipRows o.skipCols st s = (st, []) := by
            unfold xlsxText
            split
            · rfl
            · split
              · rename_i h
                rw [if_pos (by simpa [h.2] using hs)]
              · rfl
          rw [hd, runXlsx, runXlsx]
          simp only [e0, List.nil_append]
          exact (ih st).1
      · intro pend hp
        rw [firstPieces, if_pos rfl, runXlsx]
        simp only
        rcases hp s with e0 | ⟨c, c', hc, e0, hr, hcol⟩
        · rw [e0]
          exact (ih st).2 pend hp
        · rw [e0]
          have := (ih st).2 pend hp
          subst hc
          exact .drop c c' hr hcol this

theorem sharedXml_firstPieces (isNull : Str → Bool) (es : List Xml) : ∀ (n : Nat) (must : Bool),
    sharedXml isNull n must (firstPieces isNull false es) = sharedXml isNull n must es ∧
    sharedXml isNull n false (firstPieces isNull true es) = sharedXml isNull n false es := by
  induction es with
  | nil => intro n must; exact ⟨rfl, rfl⟩
  | cons e es ih =>
    intro n must
    cases e with
    | start t a => simp only [firstPieces, sharedXml, (ih _ _).1, and_self]
    | close t => simp only [firstPieces, sharedXml, (ih _ _).1, and_self]
    | text s =>
      constructor
      · rw [firstPieces]
        simp only [Bool.false_eq_true, if_false, sharedXml]
        by_cases hs : pyStrip s ≠ [] ∧ isNull (pyStrip s) = false
        · have hd : (decide (pyStrip s ≠ []) && !isNull (pyStrip s)) = true := by simp [hs.1, hs.2]
          rw [hd]
          cases must with
          | true => simp only [hs, true_and, ne_eq, not_false_eq_true, if_true, (ih _ false).2, and_self]
          | false => simp only [Bool.false_eq_true, false_and, if_false, (ih _ false).2]
        · have hd : (decide (pyStrip s ≠ []) && !isNull (pyStrip s)) = false := by
            by_cases h0 : pyStrip s = []
            · simp [h0]
            · simp only [ne_eq, h0, not_false_eq_true, true_and, Bool.not_eq_false] at hs
              simp [hs]
          rw [hd, if_neg (fun h => hs h.2), if_neg (fun h => hs h.2), (ih _ _).1]
      · rw [firstPieces, if_pos rfl]
        simp only [sharedXml, Bool.false_eq_true, false_and, if_false, (ih _ false).2]

/-- C111, what the code does: of a text that comes in pieces, `read` sees the first piece that is neither blank nor null,
in cells and in shared strings, whatever its arguments. -/
theorem C111_first_piece {A D : Type} (env : Env) (lib : Lib A D) (search : Str → Option (Str → Bool))
    (reMatch : Str → Str → Py Bool) (toInt : Str → Option Int) (isNull : Str → Bool) (o : ConcatOpts) (ia : IterArgs)
    (args : ReadArgs D) (f : XlsxFile) :
    readXlsx env lib search reMatch toInt isNull o ia args (f.firstPieces isNull) =
      readXlsx env lib search reMatch toInt isNull o ia args f := by
  unfold readXlsx
  have hstr : (f.firstPieces isNull).strings isNull = f.strings isNull := by
    simp only [XlsxFile.strings, XlsxFile.firstPieces]
    cases f.shared with
    | none => rfl
    | some d => simp only [Option.map_some, openPart, xlsxShared, XmlDoc.firstPieces, (sharedXml_firstPieces _ _ _ _).1]
  have hfmt : (f.firstPieces isNull).formats toInt = f.formats toInt := rfl
  have hrel : (f.firstPieces isNull).rels = f.rels := rfl
  have hwb : (f.firstPieces isNull).workbook = f.workbook := rfl
  rw [hstr, hfmt, hrel, hwb]
  split
  · rfl
  split
  · rfl
  split
  · rfl
  rename_i path _ _ skip take _
  have hpart : (f.firstPieces isNull).parts path = (f.parts path).map (XmlDoc.firstPieces isNull) := rfl
  rw [hpart]
  cases f.parts path with
  | none => rfl
  | some d =>
    simp only [Option.map_some, openPart]
    cases f.formats toInt with
    | error e => rfl
    | ok styles =>
      have hd : Dup ((xlsxSheet styles isNull ⟨skip, take, ia.keepEmpty, ia.skipCols⟩ d).1.filterMap Ev.cell?)
          ((xlsxSheet styles isNull ⟨skip, take, ia.keepEmpty, ia.skipCols⟩ (d.firstPieces isNull)).1.filterMap
            Ev.cell?) := by
        exact (runXlsx_firstPieces styles isNull ⟨skip, take, ia.keepEmpty, ia.skipCols⟩ d.bad d.events _).1
      simp only [hd.empty]
      split
      · rfl
      split
      · rfl
      · rw [hd.readCells]

theorem byteLen_append (a b : Str) : byteLen (a ++ b) = byteLen a + byteLen b := by
  simp [byteLen, List.flatMap_append]

theorem byteLen_pos {s : Str} (h : s ≠ []) : 0 < byteLen s := by
  cases s with
  | nil => exact absurd rfl h
  | cons c s =>
    have : byteLen (c :: s) = (String.utf8EncodeChar c).length + byteLen s := by simp [byteLen]
    rw [this, String.length_utf8EncodeChar]
    have := c.utf8Size_pos
    omega

/-- C111, exact: a shared string written in one element is read as it stands if and only if it fits in the buffer, has no
blanks around it and is not null. -/
theorem C111_shared_exact (isNull : Str → Bool) (pieces : Str → List Str) (hb : Buffers pieces) (x : Si) (s : Str)
    (hs : s ≠ []) (hx : x.texts = pieces s) :
    x.entry isNull = some s ↔ byteLen s ≤ 8192 ∧ pyStrip s = s ∧ isNull s = false := by
  have hflat : x.texts.flatten = s := by rw [hx, hb.whole]
  have := C47_exact isNull x
  rw [hflat] at this
  rw [this]
  constructor
  · rintro ⟨t, ht, h1, h2⟩
    have hm : t ∈ x.texts := by
      have : t ∈ x.texts.filter (· ≠ []) := by rw [ht]; simp
      exact (List.mem_filter.1 this).1
    have hts : t = s := by
      have key : ∀ l : List Str, l.flatten = (l.filter (· ≠ [])).flatten := by
        intro l
        induction l with
        | nil => rfl
        | cons a l ih =>
          cases a with
          | nil => simpa using ih
          | cons c a => simp [ih]
      rw [key, ht] at hflat
      simpa using hflat
    subst hts
    exact ⟨hb.fit _ t (hx ▸ hm), h1, h2⟩
  · rintro ⟨h0, h1, h2⟩
    refine ⟨s, ?_, h1, h2⟩
    rw [hx, hb.short s h0]
    simp [hs]

theorem pyStrip_byteLen (s : Str) : byteLen (pyStrip s) ≤ byteLen s := by
  have h := pyStrip_sublist s
  generalize pyStrip s = t at h
  induction h with
  | slnil => exact Nat.le_refl _
  | cons a _ ih => simp only [byteLen, List.flatMap_cons, List.length_append] at ih ⊢; omega
  | cons_cons a _ ih => simp only [byteLen, List.flatMap_cons, List.length_append] at ih ⊢; omega

/-- C111, bound: no shared string has more than 8192 bytes. -/
theorem C111_shared_bound (isNull : Str → Bool) (pieces : Str → List Str) (hb : Buffers pieces) (x : Si) (ss : List Str)
    (hx : x.texts = ss.flatMap pieces) (t : Str) (ht : x.entry isNull = some t) : byteLen t ≤ 8192 := by
  have hm := List.mem_of_find?_eq_some ht
  obtain ⟨u, hu, rfl⟩ := List.mem_map.1 hm
  rw [hx] at hu
  obtain ⟨s, _, hu⟩ := List.mem_flatMap.1 hu
  exact Nat.le_trans (pyStrip_byteLen u) (hb.fit s u hu)

theorem valueTexts_texts (l : List Str) (es : List Xml) :
    valueTexts tagV (l.map .text ++ es) = l ++ valueTexts tagV es := by
  induction l with
  | nil => rfl
  | cons a l ih => simp [valueTexts, ih]

/-- C111, exact, for the text in a cell (`t="str"`, say): the first value the column gets for the cell, the one it keeps
(`C111_first_piece`), is the text if and only if the text fits in the buffer, has no blanks around it and is not null. -/
theorem C111_cell_exact (styles : List (Str × Nat)) (isNull : Str → Bool) (pieces : Str → List Str) (hb : Buffers pieces)
    (attrs va : List (Str × Str)) (s : Str) (hs : s ≠ []) (col : Int) (ty : Nat) :
    (XCell.items styles isNull [] ⟨attrs, .start tagV va :: ((pieces s).map .text ++ [.close tagV])⟩).head? =
        some (col, ty, .text s) ↔
      byteLen s ≤ 8192 ∧ pyStrip s = s ∧ isNull s = false ∧
        col = XCell.col ⟨attrs, []⟩ ∧ ty = xlsxType styles attrs := by
  have hv : valueTexts tagC (.start tagV va :: ((pieces s).map .text ++ [.close tagV])) = pieces s := by
    simp only [valueTexts]
    rw [valueTexts_texts]
    simp [valueTexts]
  have hfind : (XCell.items styles isNull [] ⟨attrs, .start tagV va :: ((pieces s).map .text ++ [.close tagV])⟩).head? =
      (Si.entry isNull ⟨[], (pieces s).map .text⟩).map fun t => (XCell.col ⟨attrs, []⟩, xlsxType styles attrs, .text t) := by
    have htx : (⟨[], (pieces s).map .text⟩ : Si).texts = pieces s := by
      simp only [Si.texts, List.filterMap_map]
      exact List.filterMap_some
    simp only [XCell.items, hv, Si.entry, htx]
    rw [List.head?_map, List.head?_filter]
    have : (fun t : Str => decide (t ≠ [] ∧ isNull t = false ∧
        XCell.col ⟨attrs, .start tagV va :: ((pieces s).map .text ++ [.close tagV])⟩ ∉ ([] : List Int))) =
        fun t => decide (t ≠ []) && !isNull t := by
      funext t
      cases isNull t <;> simp
    rw [this]
    rfl
  have hex := C111_shared_exact isNull pieces hb ⟨[], (pieces s).map .text⟩ s hs (by
    simp only [Si.texts, List.filterMap_map]
    exact List.filterMap_some)
  rw [hfind]
  constructor
  · intro h
    rw [Option.map_eq_some_iff] at h
    obtain ⟨t, ht, he⟩ := h
    injection he with e1 e2
    injection e2 with e2 e3
    injection e3 with e3
    subst e3
    obtain ⟨a, b, c⟩ := hex.1 ht
    exact ⟨a, b, c, e1.symm, e2.symm⟩
  · rintro ⟨a, b, c, rfl, rfl⟩
    rw [hex.2 ⟨a, b, c⟩]
    rfl

/-- C111, the part that holds: texts of at most 8192 bytes without blanks around them are read whole, in shared strings
and in cells.  Missing: longer ones (`C111_long_finding`). -/
theorem C111_short_partial (styles : List (Str × Nat)) (isNull : Str → Bool) (pieces : Str → List Str) (hb : Buffers pieces)
    (attrs va : List (Str × Str)) (x : Si) (s : Str) (hs : s ≠ []) (hx : x.texts = pieces s) (hl : byteLen s ≤ 8192)
    (hp : pyStrip s = s) (hn : isNull s = false) :
    x.entry isNull = some s ∧
    XCell.items styles isNull [] ⟨attrs, .start tagV va :: ((pieces s).map .text ++ [.close tagV])⟩ =
      [(XCell.col ⟨attrs, []⟩, xlsxType styles attrs, .text s)] := by
  refine ⟨(C111_shared_exact isNull pieces hb x s hs hx).2 ⟨hl, hp, hn⟩, ?_⟩
  rw [hb.short s hl]
  simp only [XCell.items, List.map_cons, List.map_nil, List.cons_append, List.nil_append, valueTexts, if_true]
  simp [hp, hs, hn]
  rfl

/-- A buffer: characters are taken up as long as they fit. -/
def cutGo : Nat → Str → Str → List Str
  | _, acc, [] => [acc]
  | n, acc, c :: cs =>
    if n + byteLen [c] ≤ 8192 then cutGo (n + byteLen [c]) (acc ++ [c]) cs else acc :: cutGo (byteLen [c]) [c] cs

theorem byteLen_char (c : Char) : byteLen [c] ≤ 4 := by
  simp only [byteLen, List.flatMap_cons, List.flatMap_nil, List.append_nil, String.length_utf8EncodeChar]
  exact c.utf8Size_le_four

theorem cutGo_ok (s : Str) : ∀ (n : Nat) (acc : Str), n = byteLen acc → n ≤ 8192 →
    (cutGo n acc s).flatten = acc ++ s ∧ (∀ p ∈ cutGo n acc s, byteLen p ≤ 8192) ∧
    (n + byteLen s ≤ 8192 → cutGo n acc s = [acc ++ s]) := by
  induction s with
  | nil => intro n acc h1 h2; simp only [cutGo]; simp [← h1, h2]
  | cons c cs ih =>
    intro n acc h1 h2
    have hcons : byteLen (c :: cs) = byteLen [c] + byteLen cs := byteLen_append [c] cs
    simp only [cutGo]
    split
    · rename_i h
      obtain ⟨a, b, d⟩ := ih (n + byteLen [c]) (acc ++ [c]) (by rw [byteLen_append, h1]) h
      refine ⟨by simpa using a, b, fun hl => ?_⟩
      rw [d (by omega)]
      simp
    · rename_i h
      have h4 := byteLen_char c
      obtain ⟨a, b, d⟩ := ih (byteLen [c]) [c] rfl (by omega)
      refine ⟨by simp [a], ?_, fun hl => by omega⟩
      intro p hp
      rcases List.mem_cons.1 hp with rfl | hp
      · omega
      · exact b p hp

/-- There is such a buffer. -/
theorem cutGo_buffers : Buffers (cutGo 0 []) where
  short := fun s h => by simpa using (cutGo_ok s 0 [] rfl (by omega)).2.2 (by omega)
  fit := fun s => (cutGo_ok s 0 [] rfl (by omega)).2.1
  whole := fun s => by simpa using (cutGo_ok s 0 [] rfl (by omega)).1

theorem cutGo_a (m : Nat) (rest : Str) : ∀ (n : Nat) (acc : Str), n + m ≤ 8192 →
    cutGo n acc (List.replicate m 'a' ++ rest) = cutGo (n + m) (acc ++ List.replicate m 'a') rest := by
  induction m with
  | zero => intro n acc _; simp
  | succ m ih =>
    intro n acc h
    have h1 : byteLen ['a'] = 1 := by decide
    rw [List.replicate_succ, List.cons_append, cutGo, h1, if_pos (by omega), ih _ _ (by omega)]
    congr 1
    · omega
    · simp

/-- C111, finding: of a text of more than 8192 letters the first 8192 are read, the rest is lost, in a shared string as
well as in a cell. -/
theorem C111_long_finding (styles : List (Str × Nat)) (attrs va : List (Str × Str)) (n : Nat) (hn : 8192 < n) :
    Si.entry (fun _ => false) ⟨[], (cutGo 0 [] (List.replicate n 'a')).map .text⟩ = some (List.replicate 8192 'a') ∧
    (XCell.items styles (fun _ => false) []
      ⟨attrs, .start tagV va :: ((cutGo 0 [] (List.replicate n 'a')).map .text ++ [.close tagV])⟩).head? =
      some (XCell.col ⟨attrs, []⟩, xlsxType styles attrs, .text (List.replicate 8192 'a')) := by
  obtain ⟨m, hm⟩ : ∃ m, m = 8192 := ⟨_, rfl⟩
  rw [← hm] at hn ⊢
  obtain ⟨k, rfl⟩ : ∃ k, n = m + (k + 1) := ⟨n - m - 1, by omega⟩
  have h1 : byteLen ['a'] = 1 := by decide
  have hcut : ∃ l, cutGo 0 [] (List.replicate (m + (k + 1)) 'a') = List.replicate m 'a' :: l := by
    rw [← List.replicate_append_replicate, cutGo_a m _ 0 [] (by omega), List.replicate_succ, cutGo, h1,
      if_neg (by omega)]
    exact ⟨_, by rw [List.nil_append]⟩
  obtain ⟨l, hl⟩ := hcut
  have hstrip : pyStrip (List.replicate m 'a') = List.replicate m 'a' := by
    have hd : ∀ m, (List.replicate m 'a').dropWhile pySpace = List.replicate m 'a' := by
      intro m
      cases m with
      | zero => rfl
      | succ m => rw [List.replicate_succ, List.dropWhile_cons_of_neg (by decide)]
    unfold pyStrip
    rw [hd, List.reverse_replicate, hd, List.reverse_replicate]
  have hne : List.replicate m 'a' ≠ [] := by
    intro h
    have := congrArg List.length h
    rw [List.length_replicate, List.length_nil] at this
    omega
  clear hm hn
  rw [hl]
  constructor
  · simp only [Si.entry, Si.texts, List.map_cons, List.filterMap_cons, List.find?_cons, hstrip]
    simp [hne]
  · simp only [XCell.items, List.map_cons, List.cons_append, valueTexts, if_true, hstrip]
    rw [List.filter_cons_of_pos (by simp [hne])]
    rfl

/-- The example file with a text in pieces, in a cell and in a shared string. -/
def exPieces : XlsxFile :=
  let doc : XmlDoc := ⟨exTSheet.events.flatMap fun e =>
    if e = .text ['q'] then [.text ['-'], .text ['q'], .text ['r']] else [e], false⟩
  let sst : XmlDoc := ⟨(exXlsxFile.shared.getD ⟨[], false⟩).events.flatMap fun e =>
    if e = .text ['x'] then [.text [' '], .text ['x'], .text ['u']] else [e], false⟩
  { exXlsxFile with shared := some sst, parts := fun n => (exXlsxFile.parts n).map fun _ => doc }

example : (readXlsx demoEnv exLib (fun _ => none) (fun _ _ => .ok false) exInt (fun s => s == ['-']) exConcat {} {}
    exPieces).map (·.arrays) = exReadX {} := by
  decide +kernel

example : cutGo 8190 ['b'] ['c', 'й', 'd'] = [['b', 'c'], ['й', 'd']] := by decide +kernel

end Rxls
