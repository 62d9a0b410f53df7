import Verif.Model.Accel
import Verif.Props.Repr
import Verif.Props.EndToEndXlsx

/-! # Property C75: the tables do not depend on numba -/

namespace Rxls

/-- A sequence of complete records with ids below `0x8000`. -/
def WholeRecords (b : Bytes) : Prop := ∃ rs, Splits b rs [] ∧ ∀ r ∈ rs, r.recId < 0x8000

/-- The cell references of a sheet part name columns below `2^31`. -/
def ProperRefs (doc : XmlDoc) : Prop :=
  ∀ attrs r, .start tagC attrs ∈ doc.events → attrGet attrs attR = some r →
    ∃ (n : Nat) (digits : Bytes), n < 2 ^ 31 ∧ IsDigits digits ∧ r.flatMap String.utf8EncodeChar = colName n ++ digits

theorem numba_done {b : Bytes} (h : WholeRecords b) {only : OnlySet} (ho : only ≠ some []) {n : Nat}
    (hn : b.length + 2 ≤ n) : numbaRun numbaBlock only n [] b = (scanBiff only b, true) := by
  obtain ⟨rs, hw, hid⟩ := h
  rw [(numbaRun_any numbaBlock (by decide) only n [] b rs [] (by simpa using hw) hid).2 hn,
    scanBiff_filter only _ b (Nat.lt_succ_self _), scanBiff_splits hw]
  congr 1
  apply List.filter_congr
  intro r _
  match only with
  | none => rfl
  | some [] => exact absurd rfl ho
  | some (a :: s) =>
    simp only [selectedNumba, selectedPlain, List.isEmpty_cons, Bool.false_or]
    rw [Bool.eq_iff_iff]
    simp only [List.any_eq_true, beq_iff_eq, List.contains_iff_mem]
    constructor
    · rintro ⟨x, hx, e⟩
      have : x = r.recId := by omega
      exact this ▸ hx
    · intro hx; exact ⟨_, hx, rfl⟩

theorem whenDone_true {α : Type} (r : Py α) : whenDone r true = some r := by cases r <;> rfl

theorem iterXlsbNumba_true (styles : List Bytes) (isNull : Str → Bool) (nulls : Bool → List Bytes) (o : SheetArgs)
    (rs : List Record) (st : XlsbState) :
    iterXlsbNumba styles isNull nulls o true rs st = some (iterXlsb styles isNull nulls o rs st) := by
  induction rs generalizing st with
  | nil => rfl
  | cons r rs ih =>
    unfold iterXlsbNumba iterXlsb
    simp only [ih]
    split
    · generalize (if (!st.empty || o.keepEmpty) = true then st.row + 1 else st.row) = row
      split
      · rfl
      · generalize iterXlsb styles isNull nulls o rs _ = x
        cases x <;> rfl
    · split
      · rfl
      · split
        · rfl
        · cases xlsbCell styles isNull (nulls st.seen) o.skipCols r with
          | error e => rfl
          | ok c =>
            cases c with
            | none => rfl
            | some c =>
              simp only
              generalize iterXlsb styles isNull nulls o rs _ = x
              cases x <;> rfl

theorem afterwards_some {α β : Type} (r : Py α) (f : α → Option (Py β)) :
    afterwards (some r) f = match r with
      | .error e => some (.error e)
      | .ok a => f a := by cases r <;> rfl

/-- C75, XLSB: for every package whose parts consist of complete records, `read` with numba returns, and returns what
`read` without numba does. -/
theorem C75_xlsb_same {A D : Type} (env : Env) (lib : Lib A D) (search : Str → Option (Str → Bool))
    (reMatch : Str → Str → Py Bool) (isNull : Str → Bool) (o : ConcatOpts) (ia : IterArgs) (args : ReadArgs D)
    (f : XlsbFile) (hw : WholeRecords f.workbook) (hs : ∀ b, f.shared = some b → WholeRecords b)
    (ht : ∀ b, f.styles = some b → WholeRecords b) (hp : ∀ path b, f.parts path = some b → WholeRecords b) :
    ∃ n₀, ∀ n, n₀ ≤ n → readXlsbNumba n env lib search reMatch isNull o ia args f =
      some (readXlsb env lib search reMatch isNull o ia args f) := by
  have hstyles : ∀ b n, f.styles = some b → b.length + 2 ≤ n → xlsbStylesNumba n b = some (xlsbStyles b) := by
    intro b n hb hn
    unfold xlsbStylesNumba xlsbStyles
    rw [numba_done (ht b hb) (by simp) hn, numba_done (ht b hb) (by simp) hn]
    simp only [whenDone_true, afterwards_some]
    cases xfsFrom 0 (scanBiff (some [47]) b) with
    | error => rfl
    | ok xfs =>
      cases fmsOf (scanBiff (some [44]) b) with
      | error => rfl
      | ok fms => cases h : builtinStyles xfs <;> simp [h]
  have hshared : ∀ b n, f.shared = some b → b.length + 2 ≤ n → xlsbSharedNumba n isNull b = some (xlsbShared isNull b) := by
    intro b n hb hn
    unfold xlsbSharedNumba xlsbShared
    rw [numba_done (hs b hb) (by simp) hn, whenDone_true]
  have hsheet : ∀ path b n styles nulls so, f.parts path = some b → b.length + 2 ≤ n →
      xlsbSheetNumba n styles isNull nulls so b = some (xlsbSheet styles isNull nulls so b) := by
    intro path b n styles nulls so hb hn
    unfold xlsbSheetNumba xlsbSheet
    rw [numba_done (hp path b hb) (by simp [sheetIds]) hn, iterXlsbNumba_true]
  have hsheets : ∀ n, f.workbook.length + 2 ≤ n → xlsbSheetsNumba n f.rels f.workbook =
      some (xlsbSheets f.rels f.workbook) := by
    intro n hn
    unfold xlsbSheetsNumba xlsbSheets
    rw [numba_done hw (by simp) hn, whenDone_true]
  unfold readXlsbNumba readXlsb
  cases h1 : xlsbSheets f.rels f.workbook with
  | error e => exact ⟨f.workbook.length + 2, fun n hn => by rw [hsheets n hn, h1]; rfl⟩
  | ok sheets =>
    cases h2 : selectSheet sheets ia.sheet with
    | error e => exact ⟨f.workbook.length + 2, fun n hn => by rw [hsheets n hn, h1]; simp [Except.mapError, afterwards_some, h2]⟩
    | ok path =>
      refine ⟨f.workbook.length + (f.shared.getD []).length + (f.styles.getD []).length +
        ((f.parts path).getD []).length + 2, fun n hn => ?_⟩
      rw [hsheets n (by omega), h1]
      simp only [Option.map_some, Except.mapError, afterwards_some, h2]
      cases h3 : checkRows ia.skipRows ia.takeRows with
      | error e => rfl
      | ok rows =>
        obtain ⟨skip, take⟩ := rows
        simp only
        cases h4 : f.parts path with
        | none => rfl
        | some part =>
          simp only [openPart, XlsbFile.temporal, XlsbFile.strings]
          cases h5 : f.styles with
          | none => rfl
          | some sb =>
            simp only [h4, h5, Option.getD_some] at hn
            simp only [hstyles sb n h5 (by omega), afterwards_some]
            cases h6 : xlsbStyles sb with
            | error e => rfl
            | ok styles =>
              simp only
              cases h7 : f.shared with
              | none => rfl
              | some b =>
                simp only [h7, Option.getD_some] at hn
                simp only [hshared b n h7 (by omega), afterwards_some]
                cases h8 : xlsbShared isNull b with
                | error e => rfl
                | ok sst =>
                  obtain ⟨shared, nulls⟩ := sst
                  simp only [hsheet path part n _ _ _ h4 (by omega), afterwards_some]
                  split <;> simp_all

/-- C75, XLSX: the same when the cell references of the sheets name columns below `2^31`. -/
theorem C75_xlsx_same {A D : Type} (env : Env) (lib : Lib A D) (search : Str → Option (Str → Bool))
    (reMatch : Str → Str → Py Bool) (toInt : Str → Option Int) (isNull : Str → Bool) (o : ConcatOpts) (ia : IterArgs)
    (args : ReadArgs D) (f : XlsxFile) (hp : ∀ path doc, f.parts path = some doc → ProperRefs doc) :
    readXlsxNumba env lib search reMatch toInt isNull o ia args f =
      readXlsx env lib search reMatch toInt isNull o ia args f := by
  have hrun : ∀ (styles : List (Str × Nat)) (so : SheetArgs) (bad : Bool) (es : List Xml) (st : XlsxState),
      ProperRefs ⟨es, false⟩ →
      colIdxNumba (st.lCol.flatMap String.utf8EncodeChar) = colIdx (st.lCol.flatMap String.utf8EncodeChar) →
      runXlsxNumba styles isNull so bad es st = runXlsx styles isNull so bad es st := by
    intro styles so bad es
    induction es with
    | nil => intros; rfl
    | cons e es ih =>
      intro st hr hc
      have hr' : ProperRefs ⟨es, false⟩ := fun attrs r h => hr attrs r (List.mem_cons_of_mem _ h)
      cases e with
      | start tag attrs =>
        unfold runXlsxNumba runXlsx
        cases hs : xlsxStart styles so.skipRows st tag attrs with
        | error e => rfl
        | ok st' =>
          refine ih st' hr' ?_
          unfold xlsxStart at hs
          split at hs
          · cases hs; exact hc
          · split at hs
            · next h =>
              unfold attrAt at hs
              cases ha : attrGet attrs attR with
              | none => simp [ha] at hs
              | some r =>
                simp only [ha] at hs
                cases hs
                obtain ⟨n, digits, hn, hd, he⟩ := hr attrs r (by rw [← h.1]; exact List.mem_cons_self ..) ha
                simp only [he]
                obtain ⟨h1, h2⟩ := C73_agree n hn digits hd
                rw [h1, h2]
            · cases hs; exact hc
      | text txt =>
        have ht : xlsxTextNumba isNull so.skipRows so.skipCols st txt = xlsxText isNull so.skipRows so.skipCols st txt := by
          unfold xlsxTextNumba xlsxText
          rw [hc]
        unfold runXlsxNumba runXlsx
        rw [ht]
        simp only
        rw [ih _ hr']
        unfold xlsxText
        simp only
        split
        · exact hc
        · split
          · split
            · exact hc
            · split <;> exact hc
          · exact hc
      | close tag =>
        unfold runXlsxNumba runXlsx
        simp only
        rw [ih _ hr']
        unfold xlsxEnd
        simp only
        split
        · exact hc
        · split <;> exact hc
  have h0 : colIdxNumba (([] : Str).flatMap String.utf8EncodeChar) =
      colIdx (([] : Str).flatMap String.utf8EncodeChar) := by decide +kernel
  unfold readXlsxNumba readXlsx
  cases xlsxSheets f.rels f.workbook with
  | error e => rfl
  | ok sheets =>
    simp only
    cases selectSheet sheets ia.sheet with
    | error e => rfl
    | ok path =>
      simp only
      cases checkRows ia.skipRows ia.takeRows with
      | error e => rfl
      | ok rows =>
        simp only
        cases h4 : f.parts path with
        | none => rfl
        | some doc =>
          simp only [openPart]
          cases f.formats toInt with
          | error e => rfl
          | ok styles =>
            simp only [xlsxSheet]
            rw [hrun styles _ doc.bad doc.events { take := rows.2 + rows.1 } (hp path doc h4) h0]
            cases f.strings isNull <;> rfl

/-- C75, partial: `read` itself.  Missing: parts that end inside a record, where this is false (`C75_cut_part`), and cell
references without a proper column (C73). -/
theorem C75_same_table_partial {A D : Type} (env : Env) (lib : Lib A D) (search : Str → Option (Str → Bool))
    (reMatch : Str → Str → Py Bool) (toInt : Str → Option Int) (a : FileArgs D) (p : Package)
    (hx : ∀ path doc, p.xlsx.parts path = some doc → ProperRefs doc)
    (hw : WholeRecords p.xlsb.workbook) (hs : ∀ b, p.xlsb.shared = some b → WholeRecords b)
    (ht : ∀ b, p.xlsb.styles = some b → WholeRecords b)
    (hp : ∀ path b, p.xlsb.parts path = some b → WholeRecords b) :
    ∃ n₀, ∀ n, n₀ ≤ n → readFileNumba n env lib search reMatch toInt a p =
      some (readFile env lib search reMatch toInt a p) := by
  unfold readFileNumba readFile
  cases fileKind p.names with
  | error e => exact ⟨0, fun _ _ => rfl⟩
  | ok k =>
    cases k with
    | xlsx => exact ⟨0, fun _ _ => by simp only [C75_xlsx_same _ _ _ _ _ _ _ _ _ _ hx]⟩
    | xlsb => exact C75_xlsb_same _ _ _ _ _ _ _ _ _ hw hs ht hp

example : readXlsbNumba 200 demoEnv exLib (fun _ => none) (fun _ _ => .ok false) (fun s => s == ['-']) exConcat
      { skipCols := [0, 2] } {} exFile = some (readXlsb demoEnv exLib (fun _ => none) (fun _ _ => .ok false)
        (fun s => s == ['-']) exConcat { skipCols := [0, 2] } {} exFile) := by decide +kernel

/-- A sequence of complete records with ids below `0x8000`, then bytes that are not a record. -/
def CutRecords (b : Bytes) : Prop := ∃ rs t, Splits b rs t ∧ t ≠ [] ∧ ∀ r ∈ rs, r.recId < 0x8000

/-- Every byte string without higher ids is one or the other, and not both. -/
theorem whole_or_cut (b : Bytes) (h : ∀ r ∈ scanBiff none b, r.recId < 0x8000) :
    CutRecords b ↔ ¬ WholeRecords b := by
  constructor
  · rintro ⟨rs, t, h1, h2, -⟩ ⟨rs', h1', -⟩
    exact h2 (splits_unique h1 h1').2
  · intro hw
    obtain ⟨rs, t, hs⟩ := splits_exists _ b le_rfl
    rw [scanBiff_splits hs] at h
    refine ⟨rs, t, hs, ?_, h⟩
    rintro rfl
    exact hw ⟨rs, hs, h⟩

theorem cut_unfinished {b : Bytes} (h : CutRecords b) (only : OnlySet) (n : Nat) :
    (numbaRun numbaBlock only n [] b).2 = false := by
  obtain ⟨rs, t, h1, h2, h3⟩ := h
  have := (C06_exact numbaBlock (by decide) only b rs t h1 h3).1
  cases hf : (numbaRun numbaBlock only n [] b).2 with
  | false => rfl
  | true => exact absurd (this.1 ⟨n, hf⟩) h2

theorem afterwards_ok {α β : Type} {x : Option (Py α)} {f : α → Option (Py β)} {b : β}
    (h : afterwards x f = some (.ok b)) : ∃ a, x = some (.ok a) ∧ f a = some (.ok b) := by
  cases x with
  | none => cases h
  | some r =>
    cases r with
    | error e => cases h
    | ok a => exact ⟨a, rfl, h⟩

theorem whenDone_ok {α : Type} {r : Py α} {fin : Bool} {a : α} (h : whenDone r fin = some (.ok a)) : fin = true := by
  cases r with
  | error e => cases h
  | ok b =>
    cases fin with
    | true => rfl
    | false => cases h

theorem mapError_ok {α : Type} {x : Option (Py α)} {g : PyErr → PyErr} {a : α}
    (h : x.map (Except.mapError g) = some (.ok a)) : x = some (.ok a) := by
  cases x with
  | none => cases h
  | some r =>
    cases r with
    | error e => cases h
    | ok b => simpa [Except.mapError] using h

/-- Finding, C75 fails: when the workbook, styles or shared strings part ends inside a record, `read` with numba gives
no table, whatever the arguments: it never returns (C06), or raises because of something else.  Without numba the
incomplete record is ignored (C03). -/
theorem C75_cut_part {A D : Type} (n : Nat) (env : Env) (lib : Lib A D) (search : Str → Option (Str → Bool))
    (reMatch : Str → Str → Py Bool) (isNull : Str → Bool) (o : ConcatOpts) (ia : IterArgs) (args : ReadArgs D)
    (f : XlsbFile) (t : Table A)
    (hcut : CutRecords f.workbook ∨ (∃ b, f.styles = some b ∧ CutRecords b) ∨ ∃ b, f.shared = some b ∧ CutRecords b) :
    readXlsbNumba n env lib search reMatch isNull o ia args f ≠ some (.ok t) := by
  intro h
  obtain ⟨sheets, h1, h⟩ := afterwards_ok h
  obtain ⟨path, -, h⟩ := afterwards_ok h
  obtain ⟨rows, -, h⟩ := afterwards_ok h
  obtain ⟨part, -, h⟩ := afterwards_ok h
  obtain ⟨sb, h2, h⟩ := afterwards_ok h
  obtain ⟨styles, h3, h⟩ := afterwards_ok h
  obtain ⟨b, h4, h⟩ := afterwards_ok h
  obtain ⟨sst, h5, -⟩ := afterwards_ok h
  rcases hcut with hc | ⟨b', hb, hc⟩ | ⟨b', hb, hc⟩
  · have := whenDone_ok (mapError_ok h1)
    rw [cut_unfinished hc] at this
    cases this
  · rw [hb] at h2
    cases h2
    obtain ⟨xfs, h6, -⟩ := afterwards_ok h3
    have := whenDone_ok h6
    rw [cut_unfinished hc] at this
    cases this
  · rw [hb] at h4
    cases h4
    have := whenDone_ok h5
    rw [cut_unfinished hc] at this
    cases this

/-- C75, exactly, for an XLSB package whose records have ids below `0x8000` and whose sheets are complete: `read` with
numba comes back with a table if and only if `read` without numba does and the workbook, styles and shared strings parts
end with a complete record; it is then the same table. -/
theorem C75_exact {A D : Type} (env : Env) (lib : Lib A D) (search : Str → Option (Str → Bool))
    (reMatch : Str → Str → Py Bool) (isNull : Str → Bool) (o : ConcatOpts) (ia : IterArgs) (args : ReadArgs D)
    (f : XlsbFile) (hw : ∀ r ∈ scanBiff none f.workbook, r.recId < 0x8000)
    (hs : ∀ b, f.shared = some b → ∀ r ∈ scanBiff none b, r.recId < 0x8000)
    (ht : ∀ b, f.styles = some b → ∀ r ∈ scanBiff none b, r.recId < 0x8000)
    (hp : ∀ path b, f.parts path = some b → WholeRecords b) (t : Table A) :
    (∃ n₀, ∀ n, n₀ ≤ n → readXlsbNumba n env lib search reMatch isNull o ia args f = some (.ok t)) ↔
      readXlsb env lib search reMatch isNull o ia args f = .ok t ∧ WholeRecords f.workbook ∧
        (∀ b, f.shared = some b → WholeRecords b) ∧ ∀ b, f.styles = some b → WholeRecords b := by
  constructor
  · rintro ⟨n₀, h⟩
    have hcut := fun hc => C75_cut_part n₀ env lib search reMatch isNull o ia args f t hc (h n₀ le_rfl)
    have h1 : WholeRecords f.workbook := by
      by_contra hn
      exact hcut (.inl ((whole_or_cut _ hw).2 hn))
    have h2 : ∀ b, f.styles = some b → WholeRecords b := by
      intro b hb
      by_contra hn
      exact hcut (.inr (.inl ⟨b, hb, (whole_or_cut _ (ht b hb)).2 hn⟩))
    have h3 : ∀ b, f.shared = some b → WholeRecords b := by
      intro b hb
      by_contra hn
      exact hcut (.inr (.inr ⟨b, hb, (whole_or_cut _ (hs b hb)).2 hn⟩))
    obtain ⟨n₁, h4⟩ := C75_xlsb_same env lib search reMatch isNull o ia args f h1 h3 h2 hp
    have e := h4 (max n₀ n₁) (le_max_right _ _)
    rw [h (max n₀ n₁) (le_max_left _ _)] at e
    exact ⟨(Option.some.inj e).symm, h1, h3, h2⟩
  · rintro ⟨e, h1, h3, h2⟩
    obtain ⟨n₁, h4⟩ := C75_xlsb_same env lib search reMatch isNull o ia args f h1 h3 h2 hp
    exact ⟨n₁, fun n hn => by rw [h4 n hn, e]⟩

/-- A package whose shared strings part has lost its last byte. -/
def exCut : XlsbFile := { exFile with shared := exFile.shared.map List.dropLast }

/-- The finding on a concrete file: the plain reader gives the table of the whole file, the compiled one is still
waiting after any number of steps. -/
theorem C75_cut_part_example :
    (readXlsb demoEnv exLib (fun _ => none) (fun _ _ => .ok false) (fun s => s == ['-']) exConcat
      { skipCols := [0, 2] } {} exCut).map (·.arrays) = .ok [.arr ⟨.ts, [some (.ts 1704067200000)]⟩] ∧
    ∀ n t, readXlsbNumba n demoEnv exLib (fun _ => none) (fun _ _ => .ok false) (fun s => s == ['-']) exConcat
      { skipCols := [0, 2] } {} exCut ≠ some (.ok t) := by
  refine ⟨by decide +kernel, fun n t => C75_cut_part n _ _ _ _ _ _ _ _ _ t (.inr (.inr ⟨_, rfl, ?_⟩))⟩
  have hlow : ∀ r ∈ scanBiff none (bytesOf [⟨159, []⟩, sstItem 0 ['x'] [], sstItem 0 ['y', 'z'] [], ⟨160, []⟩]).dropLast,
      r.recId < 0x8000 := by decide +kernel
  rw [whole_or_cut _ hlow]
  rintro ⟨rs, hr, hid⟩
  have h1 := (numbaRun_any numbaBlock (by decide) none
    ((bytesOf [⟨159, []⟩, sstItem 0 ['x'] [], sstItem 0 ['y', 'z'] [], ⟨160, []⟩]).dropLast.length + 2) [] _ rs []
    (by simpa using hr) hid).2 le_rfl
  have h2 : (numbaRun numbaBlock none
    ((bytesOf [⟨159, []⟩, sstItem 0 ['x'] [], sstItem 0 ['y', 'z'] [], ⟨160, []⟩]).dropLast.length + 2) []
      (bytesOf [⟨159, []⟩, sstItem 0 ['x'] [], sstItem 0 ['y', 'z'] [], ⟨160, []⟩]).dropLast).2 = false := by
    decide +kernel
  rw [h1] at h2
  simp at h2

end Rxls
