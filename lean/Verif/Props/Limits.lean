import Verif.Spec.Limits
import Verif.Props.NullValues

/-! # C138: limits that limit nothing -/

namespace Rxls

/-! ## Columns -/

theorem colIdx_ge (col : Bytes) : -1 ≤ colIdx col := by
  unfold colIdx
  have : ∀ (l : Bytes) (st : Int × Nat), -1 ≤ st.1 → -1 ≤ (l.foldl
      (fun (st : Int × Nat) x =>
        if x.toNat > 64 then (st.1 + ((x.toNat : Int) - 64) * (26 ^ st.2), st.2 + 1) else st) st).1 := by
    intro l
    induction l with
    | nil => intro st h; exact h
    | cons x l ih =>
      intro st h
      rw [List.foldl_cons]
      apply ih
      split
      · have h1 : (0 : Int) ≤ (x.toNat : Int) - 64 := by omega
        have h2 : (0 : Int) ≤ 26 ^ st.2 := by positivity
        have := mul_nonneg h1 h2
        simp only
        omega
      · exact h
  exact this _ _ (by simp)

theorem SameSkipped.skipped {s s' : List Int} (h : SameSkipped s s') {k : Int} (hk : -1 ≤ k) :
    (s.isEmpty = true ∨ s.contains k = false) ↔ (s'.isEmpty = true ∨ s'.contains k = false) := by
  have key : ∀ l : List Int, (l.isEmpty = true ∨ l.contains k = false) ↔ k ∉ l := by
    intro l
    cases l with
    | nil => simp
    | cons a l => simp
  rw [key, key, h k hk]

theorem runXlsx_columns (styles : List (Str × Nat)) (isNull : Str → Bool) (skip take : Nat) (keep bad : Bool)
    {s s' : List Int} (h : SameSkipped s s') : ∀ (es : List Xml) (st : XlsxState),
    runXlsx styles isNull ⟨skip, take, keep, s⟩ bad es st = runXlsx styles isNull ⟨skip, take, keep, s'⟩ bad es st
  | [], _ => rfl
  | .start tag attrs :: es, st => by
    simp only [runXlsx]
    split
    · rfl
    · exact runXlsx_columns styles isNull skip take keep bad h es _
  | .text txt :: es, st => by
    have ht : xlsxText isNull skip s st txt = xlsxText isNull skip s' st txt := by
      unfold xlsxText
      simp only [h.skipped (colIdx_ge _)]
    simp only [runXlsx, ht]
    rw [runXlsx_columns styles isNull skip take keep bad h es _]
  | .close tag :: es, st => by
    simp only [runXlsx]
    rw [runXlsx_columns styles isNull skip take keep bad h es _]

theorem iterXlsb_columns (styles : List Bytes) (isNull : Str → Bool) (nulls : Bool → List Bytes) (skip take : Nat)
    (keep : Bool) {s s' : List Int} (h : SameSkipped s s') : ∀ (rs : List Record) (st : XlsbState),
    iterXlsb styles isNull nulls ⟨skip, take, keep, s⟩ rs st = iterXlsb styles isNull nulls ⟨skip, take, keep, s'⟩ rs st
  | [], _ => rfl
  | r :: rs, st => by
    have hc : ∀ ns, xlsbCell styles isNull ns s r = xlsbCell styles isNull ns s' r := by
      intro ns
      unfold xlsbCell
      cases hn : unpackI (pySlice r.data 0 4) with
      | error e => rfl
      | ok n =>
        have h1 := h.skipped (k := (n : Int)) (by omega)
        have h2 : (!s.isEmpty && s.contains (n : Int)) = (!s'.isEmpty && s'.contains (n : Int)) := by
          rw [Bool.eq_iff_iff, ← not_iff_not]
          simpa only [Bool.and_eq_true, Bool.not_eq_true', not_and_or, Bool.not_eq_false, Bool.not_eq_true] using h1
        simp only [h2]
    simp only [iterXlsb, hc, fun st => iterXlsb_columns styles isNull nulls skip take keep h rs st]

/-- **C138**.  `skip_cols` is a set of columns: neither order nor repetition counts, and numbers that are no columns
(negative ones do not count from the right) are without effect.  For all files. -/
theorem C138_columns {A D : Type} (env : Env) (lib : Lib A D) (search : Str → Option (Str → Bool))
    (reMatch : Str → Str → Py Bool) (toInt : Str → Option Int) (a : FileArgs D) (s s' : List Int) (h : SameSkipped s s')
    (p : Package) :
    readFile env lib search reMatch toInt { a with iter.skipCols := s } p =
      readFile env lib search reMatch toInt { a with iter.skipCols := s' } p := by
  have hx : ∀ styles isNull skip take keep, (fun doc => xlsxSheet styles isNull ⟨skip, take, keep, s⟩ doc) =
      fun doc => xlsxSheet styles isNull ⟨skip, take, keep, s'⟩ doc := by
    intro styles isNull skip take keep
    funext doc
    simp only [xlsxSheet, runXlsx_columns styles isNull skip take keep doc.bad h]
  have hb : ∀ styles isNull nulls skip take keep part, xlsbSheet styles isNull nulls ⟨skip, take, keep, s⟩ part =
      xlsbSheet styles isNull nulls ⟨skip, take, keep, s'⟩ part := by
    intro styles isNull nulls skip take keep part
    exact iterXlsb_columns styles isNull nulls skip take keep h _ _
  unfold readFile
  cases fileKind p.names with
  | error e => rfl
  | ok kind =>
    cases kind with
    | xlsx =>
      simp only [readXlsx]
      cases xlsxSheets p.xlsx.rels p.xlsx.workbook with
      | error e => rfl
      | ok sheets =>
        simp only
        cases selectSheet sheets a.iter.sheet with
        | error e => rfl
        | ok path =>
          simp only
          cases checkRows a.iter.skipRows a.iter.takeRows with
          | error e => rfl
          | ok st =>
            simp only
            cases openPart (p.xlsx.parts path) with
            | error e => rfl
            | ok doc =>
              simp only
              cases p.xlsx.formats toInt with
              | error e => rfl
              | ok styles =>
                simp only
                rw [congrFun (hx _ _ _ _ _) doc]
    | xlsb =>
      simp only [readXlsb, hb]

/-! ## Rows -/

/-- A limit of `t` rows is not reached after `row` rows if there are `n` more. -/
def Unreached (keep : Bool) (t row n : Nat) : Prop := keep = false ∧ t = 0 ∨ row + n ≤ t

theorem xlsxText_row (isNull : Str → Bool) (skip : Nat) (s : List Int) (st : XlsxState) (txt : Str) (t : Nat) :
    (xlsxText isNull skip s st txt).1.row = st.row ∧ (xlsxText isNull skip s st txt).1.take = st.take ∧
    xlsxText isNull skip s { st with take := t } txt =
      ({ (xlsxText isNull skip s st txt).1 with take := t }, (xlsxText isNull skip s st txt).2) := by
  unfold xlsxText
  split
  · exact ⟨rfl, rfl, rfl⟩
  · split
    · split
      · exact ⟨rfl, rfl, rfl⟩
      · dsimp only
        split
        · exact ⟨rfl, rfl, rfl⟩
        · exact ⟨rfl, rfl, rfl⟩
    · exact ⟨rfl, rfl, rfl⟩

theorem runXlsx_rows (styles : List (Str × Nat)) (isNull : Str → Bool) (o o' : SheetArgs) (bad : Bool)
    (hs : o.skipRows = o'.skipRows) (hk : o.keepEmpty = o'.keepEmpty) (hc : o.skipCols = o'.skipCols) :
    ∀ (es : List Xml) (st : XlsxState) (t' : Nat),
    Unreached o.keepEmpty st.take st.row (es.countP (· = .close tagRow)) →
    Unreached o.keepEmpty t' st.row (es.countP (· = .close tagRow)) →
    runXlsx styles isNull o bad es st = runXlsx styles isNull o' bad es { st with take := t' }
  | [], _, _, _, _ => rfl
  | .start tag attrs :: es, st, t', h, h' => by
    simp only [runXlsx, ← hs]
    have h1 : xlsxStart styles o.skipRows { st with take := t' } tag attrs =
        (xlsxStart styles o.skipRows st tag attrs).map fun x => { x with take := t' } := by
      unfold xlsxStart
      simp only
      split
      · rfl
      · split
        · split <;> rfl
        · rfl
    have h2 : ∀ x, xlsxStart styles o.skipRows st tag attrs = .ok x → x.row = st.row ∧ x.take = st.take := by
      intro x hx
      unfold xlsxStart at hx
      split at hx
      · cases hx; exact ⟨rfl, rfl⟩
      · split at hx
        · split at hx
          · cases hx
          · cases hx; exact ⟨rfl, rfl⟩
        · cases hx; exact ⟨rfl, rfl⟩
    rw [h1]
    cases hx : xlsxStart styles o.skipRows st tag attrs with
    | error e => rfl
    | ok x =>
      obtain ⟨e1, e2⟩ := h2 x hx
      simp only [Except.map]
      refine runXlsx_rows styles isNull o o' bad hs hk hc es x t' ?_ ?_
      · rw [e1, e2]; simpa [List.countP_cons] using h
      · rw [e1]; simpa [List.countP_cons] using h'
  | .text txt :: es, st, t', h, h' => by
    obtain ⟨e1, e2, e3⟩ := xlsxText_row isNull o.skipRows o.skipCols st txt t'
    simp only [runXlsx, ← hs, ← hc, e3]
    rw [← runXlsx_rows styles isNull o o' bad hs hk hc es _ t' (by
        rw [e1, e2]; simpa [List.countP_cons] using h) (by rw [e1]; simpa [List.countP_cons] using h')]
  | .close tag :: es, st, t', h, h' => by
    simp only [runXlsx, ← hk]
    by_cases ht : tag = tagRow
    · subst ht
      simp only [xlsxEnd, if_true]
      simp only [List.countP_cons, decide_true, if_true] at h h'
      generalize hrow : (if (!st.empty || o.keepEmpty) = true then st.row + 1 else st.row) = row
      have hle : row ≤ st.row + 1 := by rw [← hrow]; split <;> omega
      generalize hb : (if (st.empty && o.keepEmpty) = true then 1 else 0) = b
      generalize hb2 : (if (o.keepEmpty && st.empty) = true then 1 else 0) = b2
      have key : ∀ t, Unreached o.keepEmpty t st.row (es.countP (· = .close tagRow) + 1) →
          Unreached o.keepEmpty (t + b + b2) row (es.countP (· = .close tagRow)) ∧ ¬(0 < t + b + b2 ∧ t + b + b2 < row) := by
        rintro t (⟨k0, t0⟩ | h)
        · rw [k0] at hb hb2
          simp at hb hb2
          subst t0 hb hb2
          exact ⟨.inl ⟨k0, rfl⟩, by omega⟩
        · exact ⟨.inr (by omega), by omega⟩
      obtain ⟨k1, k2⟩ := key _ h
      obtain ⟨k1', k2'⟩ := key _ h'
      rw [decide_eq_false k2, decide_eq_false k2']
      simp only [Bool.false_eq_true, if_false]
      rw [← runXlsx_rows styles isNull o o' bad hs hk hc es { st with row := row, take := st.take + b + b2 } (t' + b + b2) k1 k1']
    · have hn : (Xml.close tag = .close tagRow) = False := by simp [ht]
      simp only [List.countP_cons, hn, decide_false, Bool.false_eq_true, if_false, Nat.add_zero] at h h'
      simp only [xlsxEnd, if_neg ht]
      by_cases hc' : tag = tagC
      · simp only [if_pos hc', Bool.false_eq_true, if_false]
        rw [← runXlsx_rows styles isNull o o' bad hs hk hc es { st with cTyp := 0, lTag := none } t' h h']
      · simp only [if_neg hc', Bool.false_eq_true, if_false]
        rw [← runXlsx_rows styles isNull o o' bad hs hk hc es st t' h h']

theorem iterXlsb_rows (styles : List Bytes) (isNull : Str → Bool) (nulls : Bool → List Bytes) (o o' : SheetArgs)
    (hs : o.skipRows = o'.skipRows) (hk : o.keepEmpty = o'.keepEmpty) (hc : o.skipCols = o'.skipCols) :
    ∀ (rs : List Record) (st : XlsbState),
    (o.takeRows + o.skipRows = 0 ∨ st.row + (rs.countP (·.recId = 0) : Nat) ≤ ((o.takeRows + o.skipRows : Nat) : Int)) →
    (o'.takeRows + o'.skipRows = 0 ∨ st.row + (rs.countP (·.recId = 0) : Nat) ≤ ((o'.takeRows + o'.skipRows : Nat) : Int)) →
    iterXlsb styles isNull nulls o rs st = iterXlsb styles isNull nulls o' rs st
  | [], _, _, _ => rfl
  | r :: rs, st, h, h' => by
    by_cases h0 : r.recId = 0
    · simp only [List.countP_cons, h0, decide_true, if_true] at h h'
      simp only [iterXlsb, if_pos h0, ← hk]
      generalize hrow : (if (!st.empty || o.keepEmpty) = true then st.row + 1 else st.row) = row
      have hle : row ≤ st.row + 1 := by rw [← hrow]; split <;> omega
      rw [if_neg (by omega), if_neg (by omega),
        iterXlsb_rows styles isNull nulls o o' hs hk hc rs { st with row := row, empty := true } (by
          simp only; omega) (by simp only; omega), hs]
    · simp only [List.countP_cons, h0, decide_false, Bool.false_eq_true, if_false, Nat.add_zero] at h h'
      simp only [iterXlsb, if_neg h0, ← hs, ← hc]
      have ih : ∀ e s, iterXlsb styles isNull nulls o rs ⟨st.row, e, s⟩ = iterXlsb styles isNull nulls o' rs ⟨st.row, e, s⟩ :=
        fun e s => iterXlsb_rows styles isNull nulls o o' hs hk hc rs ⟨st.row, e, s⟩ h h'
      simp only [ih]

theorem IterArgs.Reaches.checked {ia : IterArgs} {n : Nat} (h : ia.Reaches n) :
    checkRows ia.skipRows ia.takeRows = .ok (ia.skipRows.toNat, ia.takeRows.toNat) := by
  unfold checkRows
  obtain ⟨h1, h2, -⟩ | ⟨h1, h2, -⟩ := h
  · rw [if_neg (by omega), if_neg (by omega)]
  · rw [if_neg (by omega), if_neg (by omega)]

theorem IterArgs.Reaches.unreached {ia : IterArgs} {n m : Nat} (h : ia.Reaches n) (hm : m ≤ n) :
    Unreached ia.keepEmpty (ia.takeRows.toNat + ia.skipRows.toNat) 0 m := by
  obtain ⟨h1, h2, h3⟩ | ⟨h1, h2, h3⟩ := h
  · exact .inl ⟨h3, by omega⟩
  · exact .inr (by omega)

/-- **C138**.  A `take_rows` (plus `skip_rows`) of at least the number of rows of the sheet is no limit: all such numbers
give the same, which is what is read without a limit.  For all files. -/
theorem C138_rows {A D : Type} (env : Env) (lib : Lib A D) (search : Str → Option (Str → Bool))
    (reMatch : Str → Str → Py Bool) (toInt : Str → Option Int) (a : FileArgs D) (n : Nat) (t t' : Int) (p : Package)
    (hp : p.RowsUpTo n) (h : ({ a.iter with takeRows := t } : IterArgs).Reaches n)
    (h' : ({ a.iter with takeRows := t' } : IterArgs).Reaches n) :
    readFile env lib search reMatch toInt { a with iter.takeRows := t } p =
      readFile env lib search reMatch toInt { a with iter.takeRows := t' } p := by
  have c := h.checked
  have c' := h'.checked
  simp only at c c'
  unfold readFile
  cases fileKind p.names with
  | error e => rfl
  | ok kind =>
    cases kind with
    | xlsx =>
      simp only [readXlsx, c, c']
      cases xlsxSheets p.xlsx.rels p.xlsx.workbook with
      | error e => rfl
      | ok sheets =>
        simp only
        cases selectSheet sheets a.iter.sheet with
        | error e => rfl
        | ok path =>
          simp only
          cases hd : p.xlsx.parts path with
          | none => rfl
          | some doc =>
            have hn := hp.1 path doc hd
            have u := h.unreached hn
            have u' := h'.unreached hn
            simp only [openPart]
            cases p.xlsx.formats toInt with
            | error e => rfl
            | ok styles =>
              have hx : xlsxSheet styles (skipPredicate errorStringsXlsx a.nulls)
                    ⟨a.iter.skipRows.toNat, t.toNat, a.iter.keepEmpty, a.iter.skipCols⟩ doc =
                  xlsxSheet styles (skipPredicate errorStringsXlsx a.nulls)
                    ⟨a.iter.skipRows.toNat, t'.toNat, a.iter.keepEmpty, a.iter.skipCols⟩ doc := by
                simp only [xlsxSheet]
                rw [runXlsx_rows styles _ ⟨a.iter.skipRows.toNat, t.toNat, a.iter.keepEmpty, a.iter.skipCols⟩
                  ⟨a.iter.skipRows.toNat, t'.toNat, a.iter.keepEmpty, a.iter.skipCols⟩ doc.bad
                  rfl rfl rfl doc.events { take := t.toNat + a.iter.skipRows.toNat } (t'.toNat + a.iter.skipRows.toNat) u u']
              simp only
              rw [hx]
    | xlsb =>
      simp only [readXlsb, c, c']
      cases xlsbSheets p.xlsb.rels p.xlsb.workbook with
      | error e => rfl
      | ok sheets =>
        simp only
        cases selectSheet sheets a.iter.sheet with
        | error e => rfl
        | ok path =>
          simp only
          cases hd : p.xlsb.parts path with
          | none => rfl
          | some part =>
            have hn := hp.2 path part hd
            unfold biffRows at hn
            have u := h.unreached hn
            have u' := h'.unreached hn
            unfold Unreached at u u'
            simp only at u u'
            simp only [openPart, xlsbSheet]
            simp only [fun styles isNull nulls => iterXlsb_rows styles isNull nulls
              ⟨a.iter.skipRows.toNat, t.toNat, a.iter.keepEmpty, a.iter.skipCols⟩
              ⟨a.iter.skipRows.toNat, t'.toNat, a.iter.keepEmpty, a.iter.skipCols⟩ rfl rfl rfl
              (scanBiff (some sheetIds) part) {} (by simp only; omega) (by simp only; omega)]

/-! ## Examples -/

/-- What `read` gives for the sheet of C129, "-" being null, with these limits. -/
def exLimitRead (ia : IterArgs) : Py (List Fetched) :=
  let sheet : XSheet := ⟨[], exNullGrid.map fun row => ⟨[], row.map TCell.xml⟩, []⟩
  (readFile textEnv exLib (fun _ => none) (fun _ _ => .ok false) exInt { iter := ia, nulls := .values [['-']] }
      ⟨[workbookXml], { exXlsxFile with parts := fun _ => some ⟨sheet.events, false⟩ }, exFile⟩).map (·.arrays)

/-- Three rows and two columns: a list with a repetition and numbers without columns skips the second column; three rows
and a hundred are no limit, one is. -/
example : exLimitRead { skipCols := [-2, 1, 7, 1] } = exLimitRead { skipCols := [1] } ∧
    exLimitRead { skipCols := [1] } = .ok [.arr ⟨.i8, [some (.i8 1), none, some (.i8 2)]⟩] ∧
    exLimitRead { takeRows := 3 } = exLimitRead {} ∧ exLimitRead { takeRows := 100 } = exLimitRead {} ∧
    exLimitRead { takeRows := 1 } ≠ exLimitRead {} := by decide +kernel

end Rxls
