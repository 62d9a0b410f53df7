import Mathlib.Data.List.TakeWhile
import Verif.Spec.Blanks
import Verif.Props.EndToEndXlsx
import Verif.Props.CellType
import Verif.Props.XlsxParts
import Verif.Props.XlsbParts
import Verif.Props.Phonetic
import Verif.Props.Xlsb

/-! # Property C113: the blanks around a text are part of it -/

namespace Rxls

theorem blank_iff (c : Char) : pySpace c = true ↔ c.toNat ∈ blankCodes := by
  simp only [pySpace, blankCodes, List.mem_cons, List.not_mem_nil, or_false, Bool.or_eq_true, Bool.and_eq_true,
    decide_eq_true_eq, beq_iff_eq]
  omega

theorem dropWhile_blank {a : Str} (h : AllBlank a) (s : Str) : (a ++ s).dropWhile pySpace = s.dropWhile pySpace := by
  induction a with
  | nil => rfl
  | cons c a ih =>
    rw [List.cons_append, List.dropWhile_cons, if_pos ((blank_iff c).2 (h c (by simp)))]
    exact ih fun x hx => h x (by simp [hx])

theorem allBlank_reverse {a : Str} (h : AllBlank a) : AllBlank a.reverse := fun c hc => h c (List.mem_reverse.1 hc)

theorem pyStrip_pad {a b : Str} (ha : AllBlank a) (hb : AllBlank b) (s : Str) : pyStrip (a ++ s ++ b) = pyStrip s := by
  unfold pyStrip
  rw [List.append_assoc, dropWhile_blank ha]
  by_cases hs : s.dropWhile pySpace = []
  · have h0 : ∀ c ∈ s, pySpace c = true := List.dropWhile_eq_nil_iff.1 hs
    rw [dropWhile_blank (fun c hc => (blank_iff c).1 (h0 c hc)), hs]
    have : b.dropWhile pySpace = [] := List.dropWhile_eq_nil_iff.2 fun c hc => (blank_iff c).2 (hb c hc)
    rw [this]
  · have key : (s ++ b).dropWhile pySpace = s.dropWhile pySpace ++ b := by
      rw [List.dropWhile_append]
      simp [hs]
    rw [key, List.reverse_append, dropWhile_blank (allBlank_reverse hb)]

/-- What is stripped is blank. -/
theorem pyStrip_split (s : Str) : ∃ a b, s = a ++ pyStrip s ++ b ∧ AllBlank a ∧ AllBlank b := by
  refine ⟨s.takeWhile pySpace, ((s.dropWhile pySpace).reverse.takeWhile pySpace).reverse, ?_, ?_, ?_⟩
  · unfold pyStrip
    rw [List.append_assoc, ← List.reverse_append, List.takeWhile_append_dropWhile, List.reverse_reverse,
      List.takeWhile_append_dropWhile]
  · intro c hc
    exact (blank_iff c).1 (List.mem_takeWhile_imp hc)
  · intro c hc
    exact (blank_iff c).1 (List.mem_takeWhile_imp (List.mem_reverse.1 hc))

theorem sameCore_iff (s s' : Str) : pyStrip s = pyStrip s' ↔ SameCore s s' := by
  constructor
  · intro h
    obtain ⟨a, b, e, ha, hb⟩ := pyStrip_split s
    obtain ⟨a', b', e', ha', hb'⟩ := pyStrip_split s'
    exact ⟨pyStrip s, a, b, a', b', e, by rw [h]; exact e', ha, hb, ha', hb'⟩
  · rintro ⟨core, a, b, a', b', rfl, rfl, ha, hb, ha', hb'⟩
    rw [pyStrip_pad ha hb, pyStrip_pad ha' hb']

theorem strip_id_iff (s : Str) : pyStrip s = s ↔ NoOuterBlank s := by
  constructor
  · rintro h c (hc | hc) hb
    · obtain ⟨t, rfl⟩ : ∃ t, s = c :: t := by
        cases s with
        | nil => simp at hc
        | cons d t => simp only [List.head?_cons, Option.some.injEq] at hc; exact ⟨t, by rw [hc]⟩
      have h1 : pyStrip (c :: t) = pyStrip t := by
        have := pyStrip_pad (a := [c]) (b := []) (by simpa [AllBlank] using hb) (by simp [AllBlank]) t
        simpa using this
      have h2 := (pyStrip_sublist t).length_le
      rw [← h1, h] at h2
      simp at h2
    · obtain ⟨t, rfl⟩ : ∃ t, s = t ++ [c] := by
        rw [List.getLast?_eq_some_iff] at hc
        exact hc
      have h1 : pyStrip (t ++ [c]) = pyStrip t := by
        have := pyStrip_pad (a := []) (b := [c]) (by simp [AllBlank]) (by simpa [AllBlank] using hb) t
        simpa using this
      have h2 := (pyStrip_sublist t).length_le
      rw [← h1, h] at h2
      simp at h2
  · intro h
    unfold pyStrip
    cases s with
    | nil => rfl
    | cons c t =>
      have hc : pySpace c = false := by
        rw [Bool.eq_false_iff, Ne, blank_iff]
        exact h c (.inl rfl)
      rw [List.dropWhile_cons, if_neg (by simp [hc])]
      rcases List.eq_nil_or_concat' (c :: t) with h0 | ⟨l, d, e⟩
      · cases h0
      · have hd : pySpace d = false := by
          rw [Bool.eq_false_iff, Ne, blank_iff]
          exact h d (.inr (by rw [e]; simp))
        rw [e]
        simp [hd]

theorem runXlsx_blanks (styles : List (Str × Nat)) (isNull : Str → Bool) (o : SheetArgs) (bad : Bool) {es es' : List Xml}
    (h : List.Forall₂ Xml.SameCore es es') :
    ∀ st : XlsxState, runXlsx styles isNull o bad es st = runXlsx styles isNull o bad es' st := by
  induction h with
  | nil => intros; rfl
  | @cons e e' es es' he h ih =>
    intro st
    cases he with
    | same e => cases e <;> simp only [runXlsx, ih]
    | text hs =>
      have h1 := (sameCore_iff _ _).2 hs
      simp only [runXlsx, xlsxText, h1, ih]

theorem sharedXml_blanks (isNull : Str → Bool) {es es' : List Xml} (h : List.Forall₂ Xml.SameCore es es') :
    ∀ n must, sharedXml isNull n must es = sharedXml isNull n must es' := by
  induction h with
  | nil => intros; rfl
  | @cons e e' es es' he h ih =>
    intro n must
    cases he with
    | same e => cases e <;> simp only [sharedXml, ih]
    | text hs =>
      have h1 := (sameCore_iff _ _).2 hs
      simp only [sharedXml, h1, ih]

/-- C113, what the code does with XLSX: the blanks at the ends of texts do not matter; two files that differ in them only are
read alike, whatever the arguments are. -/
theorem C113_xlsx_same {A D : Type} (env : Env) (lib : Lib A D) (search : Str → Option (Str → Bool))
    (reMatch : Str → Str → Py Bool) (toInt : Str → Option Int) (isNull : Str → Bool) (o : ConcatOpts) (ia : IterArgs)
    (args : ReadArgs D) (f f' : XlsxFile) (hr : f.rels = f'.rels) (hw : f.workbook = f'.workbook)
    (hst : f.styles = f'.styles) (hs : Option.Rel XmlDoc.SameCore f.shared f'.shared)
    (hp : ∀ p, Option.Rel XmlDoc.SameCore (f.parts p) (f'.parts p)) :
    readXlsx env lib search reMatch toInt isNull o ia args f = readXlsx env lib search reMatch toInt isNull o ia args f' := by
  unfold readXlsx
  rw [hr, hw]
  have hF : f.formats toInt = f'.formats toInt := by unfold XlsxFile.formats; rw [hst]
  have hS : f.strings isNull = f'.strings isNull := by
    unfold XlsxFile.strings
    generalize f.shared = d at hs
    generalize f'.shared = d' at hs
    cases hs with
    | none => rfl
    | some h =>
      simp only [openPart, xlsxShared, h.1, sharedXml_blanks isNull h.2]
  rw [hF, hS]
  split
  · rfl
  split
  · rfl
  split
  · rfl
  rename_i path _ _ _ _ _
  have := hp path
  generalize f.parts path = d at this
  generalize f'.parts path = d' at this
  cases this with
  | none => rfl
  | some h =>
    simp only [openPart, xlsxSheet, h.1, runXlsx_blanks _ isNull _ _ h.2]
    rfl

/-- C113, exact: a text that the shared strings of an XLSX file hold in one piece is read as it stands if and only if no blank
is at its ends and it is not null. -/
theorem C113_shared_exact (isNull : Str → Bool) (x : Si) (s : Str) (hs : s ≠ []) (hx : x.texts = [s]) :
    x.entry isNull = some s ↔ NoOuterBlank s ∧ isNull s = false := by
  have h := C47_exact isNull x
  rw [hx] at h
  simp only [List.flatten_cons, List.flatten_nil, List.append_nil] at h
  rw [h, ← strip_id_iff]
  constructor
  · rintro ⟨t, ht, h1, h2⟩
    have : t = s := by simpa [hs] using ht.symm
    subst this
    exact ⟨h1, h2⟩
  · rintro ⟨h1, h2⟩
    exact ⟨s, by simp [hs], h1, h2⟩

/-- C113, exact: a text that stands in the cell of an XLSX sheet is delivered as it stands if and only if no blank is at its
ends and it is neither empty nor null (the cell is in a row that is read and a column that is not skipped). -/
theorem C113_cell_exact (isNull : Str → Bool) (skip : Nat) (skipCols : List Int) (st : XlsxState) (s : Str)
    (hr : skip ≤ st.row) (ht : st.lTag = some tagV)
    (hc : skipCols.contains (colIdx (st.lCol.flatMap String.utf8EncodeChar)) = false) :
    (∃ c, (xlsxText isNull skip skipCols st s).2 = [.cell c] ∧ c.val = .text s) ↔
      s ≠ [] ∧ NoOuterBlank s ∧ isNull s = false := by
  unfold xlsxText
  rw [if_neg (by omega), ← strip_id_iff]
  constructor
  · rintro ⟨c, h, h1⟩
    split at h
    · rename_i hv
      split at h
      · simp at h
      · rename_i hn
        simp only [hc, or_true, if_true, List.cons.injEq, Ev.cell.injEq, and_true] at h
        subst h
        simp only [Raw.text.injEq] at h1
        rw [h1] at hv hn
        exact ⟨hv.2, h1, by simpa using hn⟩
    · simp at h
  · rintro ⟨h0, h1, h2⟩
    rw [h1, if_pos ⟨ht, h0⟩, if_neg (by simp [h2])]
    simp only [hc, or_true, if_true]
    exact ⟨_, rfl, rfl⟩

/-- C113, partial: in XLSX a text without blanks at its ends is delivered as it stands, from the cell and from the shared
strings.  Missing: texts with blanks at the ends, which lose them (`C113_xlsx_same`). -/
theorem C113_xlsx_partial (isNull : Str → Bool) (s : Str) (hs : s ≠ []) (hb : NoOuterBlank s) (hn : isNull s = false) :
    (∀ x : Si, x.texts = [s] → x.entry isNull = some s) ∧
    ∀ (skip : Nat) (skipCols : List Int) (st : XlsxState), skip ≤ st.row → st.lTag = some tagV →
      skipCols.contains (colIdx (st.lCol.flatMap String.utf8EncodeChar)) = false →
      ∃ c, (xlsxText isNull skip skipCols st s).2 = [.cell c] ∧ c.val = .text s :=
  ⟨fun x hx => (C113_shared_exact isNull x s hs hx).2 ⟨hb, hn⟩,
    fun skip skipCols st h1 h2 h3 => (C113_cell_exact isNull skip skipCols st s h1 h2 h3).2 ⟨hs, hb, hn⟩⟩

/-- C113 for XLSB: texts are delivered as they are stored, with the blanks at their ends, from the cell and from the shared
strings. -/
theorem C113_xlsb (isNull : Str → Bool) (s : Str) (hm : NoMark s) (hl : (utf16 s).length < 2 ^ 32) (hn : isNull s = false) :
    (∀ (part : Bytes) (items : List (UInt8 × Str × Bytes)) (i : Nat) (x : UInt8 × Str × Bytes),
      (scanBiff (some [19]) part = items.map fun y => sstItem y.1 y.2.1 y.2.2) → items.length ≤ 2 ^ 32 →
      (∀ y ∈ items, NoMark y.2.1 ∧ (utf16 y.2.1).length < 2 ^ 32) → items[i]? = some x → x.2.1 = s →
      ∃ l keys, xlsbShared isNull part = .ok (l, keys) ∧ l[i]? = some (some s) ∧ le32 i ∉ keys) ∧
    ∀ (styles nulls : List Bytes) (col : Nat) (style : Bytes) (flags : UInt8) (extra : Bytes) (id : Nat), col < 2 ^ 32 →
      style.length = 3 → (id = 6 ∨ id = 8) →
      xlsbCell styles isNull nulls [] ⟨id, cellPayload col style flags (.text s) extra⟩ = .ok (some (col, 0x18, .text s)) := by
  constructor
  · intro part items i x hp hi h hx he
    obtain ⟨keys, h1, h2⟩ := C46_xlsb_aligned isNull part items hp hi h
    refine ⟨_, keys, h1, ?_, ?_⟩
    · rw [List.getElem?_map, hx, Option.map_some, he]
    · rw [h2 i x hx, he, hn]
      simp
  · intro styles nulls col style flags extra id hcol hst hid
    rw [C37_cell styles isNull nulls col style flags (.text s) extra id hcol hst ⟨hm, hl⟩ (by simpa [Content.ids] using hid)]
    simp [Content.dropped, hn, Content.tag, Content.raw]

/-- The example file in XLSB, with another first shared string. -/
def exBlankReadB (s : Str) : Py (List Fetched) :=
  (readXlsb demoEnv exLib (fun _ => none) (fun _ _ => .ok false) (fun s => s == ['-']) exConcat {} {}
    { exFile with shared := some (bytesOf [⟨159, []⟩, sstItem 0 s [], sstItem 0 ['y', 'z'] [], ⟨160, []⟩]) }).map (·.arrays)

example : exGuidedRead [exSi [['x', ' ', 'x']], exSi [['y', 'z']]] =
      exGuidedRead [exSi [['\n', 'x', ' ', 'x', ' ']], exSi [['y', 'z']]] ∧
    (exGuidedRead [exSi [['x', ' ', 'x']], exSi [['y', 'z']]]).map (·[2]?) =
      .ok (some (.arr ⟨.utf8, [some (.str ['q']), none, none, some (.str ['x', ' ', 'x'])]⟩)) ∧
    (exBlankReadB ['x', ' ', 'x']).map (·[2]?) =
      .ok (some (.arr ⟨.utf8, [some (.str ['q']), some (.str ['x', ' ', 'x'])]⟩)) := by
  decide +kernel

/-- C113, finding: of the same content, XLSX delivers a text without the blanks (no-break spaces among them) at its ends, and
nothing for a text of blanks; XLSB delivers them. -/
theorem C113_blanks_finding :
    (exGuidedRead [exSi [[' ', 'x', '\u00a0']], exSi [['y', 'z']]]).map (·[2]?) =
      .ok (some (.arr ⟨.utf8, [some (.str ['q']), none, none, some (.str ['x'])]⟩)) ∧
    (exBlankReadB [' ', 'x', '\u00a0']).map (·[2]?) =
      .ok (some (.arr ⟨.utf8, [some (.str ['q']), some (.str [' ', 'x', '\u00a0'])]⟩)) ∧
    (exGuidedRead [exSi [[' ', ' ']], exSi [['y', 'z']]]).map (·[2]?) =
      .ok (some (.arr ⟨.utf8, [some (.str ['q']), none, none, none]⟩)) ∧
    (exBlankReadB [' ', ' ']).map (·[2]?) =
      .ok (some (.arr ⟨.utf8, [some (.str ['q']), some (.str [' ', ' '])]⟩)) := by
  decide +kernel

end Rxls
