import Verif.Model.UserFns
import Verif.Model.Queue
import Verif.Props.EndToEndXlsx

/-! # Property C104: what `row_callback` and `null_values` raise reaches the caller -/

namespace Rxls

/-- The events before call number `j` of the callback. -/
def beforeCallback : Nat → List Ev → List Ev
  | _, [] => []
  | 0, .callback :: _ => []
  | j + 1, .callback :: es => .callback :: beforeCallback j es
  | j, .cell c :: es => .cell c :: beforeCallback j es

/-- Call number `j` raises `e`, the calls before it return. -/
def FirstRaise (cb : Nat → Option PyErr) (j : Nat) (e : PyErr) : Prop := (∀ i < j, cb i = none) ∧ cb j = some e

theorem beforeCallback_append (cs : List Cell) (j : Nat) (es : List Ev) :
    beforeCallback j (cs.map Ev.cell ++ es) = cs.map Ev.cell ++ beforeCallback j es := by
  induction cs with
  | nil => rfl
  | cons c cs ih => simp [beforeCallback, ih]

theorem xlsxText_cells (isNull : Str → Bool) (skip : Nat) (cols : List Int) (st : XlsxState) (txt : Str) :
    ∃ cs : List Cell, (xlsxText isNull skip cols st txt).2 = cs.map Ev.cell := by
  unfold xlsxText
  split
  · exact ⟨[], rfl⟩
  split
  · split
    · exact ⟨[], rfl⟩
    · simp only
      split
      · exact ⟨[_], rfl⟩
      · exact ⟨[], rfl⟩
  · exact ⟨[], rfl⟩

theorem xlsxTextU_ok (null : Str → Py Bool) (isNull : Str → Bool) (hN : ∀ s b, null s = .ok b → isNull s = b) (skip : Nat)
    (cols : List Int) (st : XlsxState) (txt : Str) (p : XlsxState × List Ev)
    (h : xlsxTextU null skip cols st txt = .ok p) : xlsxText isNull skip cols st txt = p := by
  unfold xlsxTextU at h
  unfold xlsxText
  split at h
  · rename_i h1
    rw [if_pos h1]
    injection h
  · rename_i h1
    rw [if_neg h1]
    split at h
    · rename_i h2
      rw [if_pos h2]
      cases hn : null (pyStrip txt) with
      | error e => rw [hn] at h; simp at h
      | ok b =>
        rw [hN _ _ hn]
        rw [hn] at h
        cases b with
        | true => simpa using h
        | false =>
          simp only [Bool.false_eq_true, if_false] at h ⊢
          split at h
          · rename_i h3
            rw [if_pos h3]
            injection h
          · rename_i h3
            rw [if_neg h3]
            injection h
    · rename_i h2
      rw [if_neg h2]
      injection h

theorem xlsxTextU_total (isNull : Str → Bool) (skip : Nat) (cols : List Int) (st : XlsxState) (txt : Str) :
    xlsxTextU (fun s => .ok (isNull s)) skip cols st txt = .ok (xlsxText isNull skip cols st txt) := by
  cases h : xlsxTextU (fun s => .ok (isNull s)) skip cols st txt with
  | ok p => rw [xlsxTextU_ok (fun s => .ok (isNull s)) isNull (fun s b h => by injection h) _ _ _ _ _ h]
  | error e =>
    exfalso
    unfold xlsxTextU at h
    split at h
    · cases h
    split at h
    · cases hn : isNull (pyStrip txt) with
      | true => simp only [hn] at h; cases h
      | false =>
        simp only [hn] at h
        split at h <;> cases h
    · cases h

theorem xlsxEnd_cases (keep : Bool) (st : XlsxState) (tag : Str) :
    ((xlsxEnd keep st tag).2.1 = [.callback]) ∨
      ((xlsxEnd keep st tag).2.1 = [] ∧ (xlsxEnd keep st tag).2.2 = false) := by
  unfold xlsxEnd
  split
  · exact .inl rfl
  split
  · exact .inr ⟨rfl, rfl⟩
  · exact .inr ⟨rfl, rfl⟩

/-- The worker when some call raises. -/
theorem runXlsxU_raise (styles : List (Str × Nat)) (isNull : Str → Bool) (cb : Nat → Option PyErr) (o : SheetArgs)
    (bad : Bool) (e : PyErr) : ∀ (evs : List Xml) (k j : Nat) (st : XlsxState), (∀ i < j, cb (k + i) = none) →
      cb (k + j) = some e → j < evCallbacks (runXlsx styles isNull o bad evs st).1 →
      runXlsxU styles (fun s => .ok (isNull s)) cb o bad k evs st =
        (beforeCallback j (runXlsx styles isNull o bad evs st).1, .died e)
  | [], k, j, st, _, _, hj => by simp [runXlsx, evCallbacks] at hj
  | .start tag attrs :: es, k, j, st, h1, h2, hj => by
    simp only [runXlsx, runXlsxU] at hj ⊢
    cases h : xlsxStart styles o.skipRows st tag attrs with
    | error e => rw [h] at hj; simp [evCallbacks] at hj
    | ok st' =>
      rw [h] at hj
      exact runXlsxU_raise styles isNull cb o bad e es k j st' h1 h2 hj
  | .text txt :: es, k, j, st, h1, h2, hj => by
    simp only [runXlsx, runXlsxU, xlsxTextU_total] at hj ⊢
    obtain ⟨cs, hcs⟩ := xlsxText_cells isNull o.skipRows o.skipCols st txt
    rw [hcs] at hj ⊢
    have hc : evCallbacks (cs.map Ev.cell) = 0 := by
      rw [evCallbacks, List.count_eq_zero]
      simp
    rw [evCallbacks, List.count_append] at hj
    rw [runXlsxU_raise styles isNull cb o bad e es k j _ h1 h2 (by unfold evCallbacks at hc ⊢; omega), beforeCallback_append]
  | .close tag :: es, k, j, st, h1, h2, hj => by
    simp only [runXlsx, runXlsxU] at hj ⊢
    rcases xlsxEnd_cases o.keepEmpty st tag with hp | ⟨hp, hq⟩
    · rw [hp] at hj ⊢
      simp only [List.cons_ne_nil, if_false]
      cases j with
      | zero =>
        have : cb k = some e := h2
        rw [this]
        dsimp only
        split <;> rfl
      | succ j =>
        have hk : cb k = none := h1 0 (by omega)
        rw [hk]
        simp only
        split
        · rename_i hs
          rw [if_pos hs] at hj
          simp [evCallbacks] at hj
        · rename_i hs
          rw [if_neg hs] at hj
          simp only [evCallbacks, List.cons_append, List.nil_append, List.count_cons_self] at hj
          rw [runXlsxU_raise styles isNull cb o bad e es (k + 1) j _
            (fun i hi => by rw [← h1 (i + 1) (by omega)]; congr 1; omega) (by rw [← h2]; congr 1; omega)
            (by unfold evCallbacks; omega)]
          rfl
    · rw [hp, hq] at hj ⊢
      simp only [if_true, Bool.false_eq_true, if_false, List.nil_append] at hj ⊢
      exact runXlsxU_raise styles isNull cb o bad e es k j _ h1 h2 hj

/-- The worker when no call raises. -/
theorem runXlsxU_returns (styles : List (Str × Nat)) (isNull : Str → Bool) (cb : Nat → Option PyErr) (o : SheetArgs)
    (bad : Bool) : ∀ (evs : List Xml) (k : Nat) (st : XlsxState),
      (∀ i < evCallbacks (runXlsx styles isNull o bad evs st).1, cb (k + i) = none) →
      runXlsxU styles (fun s => .ok (isNull s)) cb o bad k evs st = runXlsx styles isNull o bad evs st
  | [], k, st, _ => rfl
  | .start tag attrs :: es, k, st, h1 => by
    simp only [runXlsx, runXlsxU] at h1 ⊢
    cases h : xlsxStart styles o.skipRows st tag attrs with
    | error e => rfl
    | ok st' =>
      rw [h] at h1
      exact runXlsxU_returns styles isNull cb o bad es k st' h1
  | .text txt :: es, k, st, h1 => by
    simp only [runXlsx, runXlsxU, xlsxTextU_total] at h1 ⊢
    rw [runXlsxU_returns styles isNull cb o bad es k _ fun i hi => h1 i (by
      rw [evCallbacks, List.count_append]; unfold evCallbacks at hi; omega)]
  | .close tag :: es, k, st, h1 => by
    simp only [runXlsx, runXlsxU] at h1 ⊢
    rcases xlsxEnd_cases o.keepEmpty st tag with hp | ⟨hp, hq⟩
    · rw [hp] at h1 ⊢
      simp only [List.cons_ne_nil, if_false]
      have hk : cb k = none := h1 0 (by split <;> simp [evCallbacks])
      rw [hk]
      simp only
      split
      · rfl
      · rename_i hs
        rw [if_neg hs] at h1
        simp only [evCallbacks, List.cons_append, List.nil_append, List.count_cons_self] at h1
        rw [runXlsxU_returns styles isNull cb o bad es (k + 1) _ fun i hi => by
          rw [← h1 (i + 1) (by unfold evCallbacks at hi; omega)]; congr 1; omega]
    · rw [hp, hq] at h1 ⊢
      simp only [if_true, Bool.false_eq_true, if_false, List.nil_append] at h1 ⊢
      exact runXlsxU_returns styles isNull cb o bad es k _ h1

/-- The worker, whatever is raised: as if the document ended before. -/
theorem runXlsxU_prefix (styles : List (Str × Nat)) (null : Str → Py Bool) (isNull : Str → Bool)
    (hN : ∀ s b, null s = .ok b → isNull s = b) (cb : Nat → Option PyErr) (o : SheetArgs) (bad : Bool) :
    ∀ (evs : List Xml) (k : Nat) (st : XlsxState), ∃ pre rest, evs = pre ++ rest ∧
      (runXlsx styles isNull o false pre st).1 = (runXlsxU styles null cb o bad k evs st).1 ∧
      (runXlsx styles isNull o false pre st).2.error? = none
  | [], k, st => ⟨[], [], rfl, rfl, rfl⟩
  | .start tag attrs :: es, k, st => by
    cases h : xlsxStart styles o.skipRows st tag attrs with
    | error e => exact ⟨[], _, rfl, by simp [runXlsx, runXlsxU, h], rfl⟩
    | ok st' =>
      obtain ⟨pre, rest, h1, h2, h3⟩ := runXlsxU_prefix styles null isNull hN cb o bad es k st'
      exact ⟨.start tag attrs :: pre, rest, by simp [h1], by simp [runXlsx, runXlsxU, h, h2], by simp [runXlsx, h, h3]⟩
  | .text txt :: es, k, st => by
    cases h : xlsxTextU null o.skipRows o.skipCols st txt with
    | error e => exact ⟨[], _, rfl, by simp [runXlsx, runXlsxU, h], rfl⟩
    | ok p =>
      have ht := xlsxTextU_ok null isNull hN _ _ _ _ _ h
      obtain ⟨pre, rest, h1, h2, h3⟩ := runXlsxU_prefix styles null isNull hN cb o bad es k p.1
      exact ⟨.text txt :: pre, rest, by simp [h1], by simp [runXlsx, runXlsxU, h, ht, h2], by simp [runXlsx, ht, h3]⟩
  | .close tag :: es, k, st => by
    rcases xlsxEnd_cases o.keepEmpty st tag with hp | ⟨hp, hq⟩
    · cases hk : cb k with
      | some e => exact ⟨[], _, rfl, by simp [runXlsx, runXlsxU, hp, hk], rfl⟩
      | none =>
        by_cases hs : (xlsxEnd o.keepEmpty st tag).2.2 = true
        · exact ⟨[.close tag], es, rfl, by simp [runXlsx, runXlsxU, hp, hk, hs], by simp [runXlsx, hs, Exit.error?]⟩
        · obtain ⟨pre, rest, h1, h2, h3⟩ :=
            runXlsxU_prefix styles null isNull hN cb o bad es (k + 1) (xlsxEnd o.keepEmpty st tag).1
          exact ⟨.close tag :: pre, rest, by simp [h1], by simp [runXlsx, runXlsxU, hp, hk, hs, h2], by simp [runXlsx, hs, h3]⟩
    · obtain ⟨pre, rest, h1, h2, h3⟩ :=
        runXlsxU_prefix styles null isNull hN cb o bad es k (xlsxEnd o.keepEmpty st tag).1
      exact ⟨.close tag :: pre, rest, by simp [h1], by simp [runXlsx, runXlsxU, hp, hq, h2], by simp [runXlsx, hq, h3]⟩

/-- C104 (XLSX), what the code does.  If the first call raises, no result is ever delivered.  If a later call is the first
that raises, the consumer gets the cells before that call and then the regular end; the exception stays in the thread.  If no
call raises, all is as without the callback. -/
theorem C104_xlsx_exact (styles : List (Str × Nat)) (isNull : Str → Bool) (cb : Nat → Option PyErr) (o : SheetArgs)
    (doc : XmlDoc) :
    (∀ e, FirstRaise cb 0 e → xlsxSheetU styles (fun s => .ok (isNull s)) cb o doc = none) ∧
    (∀ j e, FirstRaise cb (j + 1) e → j + 1 < evCallbacks (xlsxSheet styles isNull o doc).1 →
      xlsxSheetU styles (fun s => .ok (isNull s)) cb o doc =
        some (beforeCallback (j + 1) (xlsxSheet styles isNull o doc).1, .died e)) ∧
    ((∀ j < evCallbacks (xlsxSheet styles isNull o doc).1, cb j = none) →
      xlsxSheetU styles (fun s => .ok (isNull s)) cb o doc = some (xlsxSheet styles isNull o doc)) := by
  refine ⟨?_, ?_, ?_⟩
  · rintro e ⟨_, h⟩
    unfold xlsxSheetU
    rw [h]
  · rintro j e ⟨h1, h2⟩ hj
    unfold xlsxSheetU
    rw [h1 0 (by omega)]
    simp only [xlsxSheet, evCallbacks, List.count_cons_self] at hj ⊢
    rw [runXlsxU_raise styles isNull cb o doc.bad e doc.events 1 j _
      (fun i hi => by rw [← h1 (i + 1) (by omega)]; congr 1; omega) (by rw [← h2]; congr 1; omega)
      (by unfold evCallbacks; omega)]
    rfl
  · intro h
    unfold xlsxSheetU
    simp only [xlsxSheet, evCallbacks, List.count_cons_self] at h ⊢
    rw [h 0 (by omega)]
    simp only
    rw [runXlsxU_returns styles isNull cb o doc.bad doc.events 1 _ fun i hi => by
      rw [← h (i + 1) (by unfold evCallbacks at hi; omega)]; congr 1; omega]

/-- C104 (XLSX): when the first call raises, the thread has ended without the sentinel.  Then no schedule ever changes the
state: neither thread can move, and the consumer has not stopped. -/
theorem C104_xlsx_deadlock (ts : List Thread) (t : Thread) :
    (qRun ts ({ todo := [], sent := true } : QState Cell)).done = false ∧
    qStep t (qRun ts ({ todo := [], sent := true } : QState Cell)) = none := by
  have h : ∀ t, qStep t ({ todo := [], sent := true } : QState Cell) = none := by
    intro t
    cases t <;> rfl
  have hr : ∀ ts, qRun ts ({ todo := [], sent := true } : QState Cell) = { todo := [], sent := true } := by
    intro ts
    induction ts with
    | nil => rfl
    | cons t ts ih =>
      rw [qRun, h t]
      exact ih
  rw [hr]
  exact ⟨rfl, h t⟩

/-- C104 (XLSX): whatever `null_values` and later calls of the callback raise, the consumer gets what it gets for a
well-formed beginning of the sheet part. -/
theorem C104_xlsx_silent (styles : List (Str × Nat)) (null : Str → Py Bool) (isNull : Str → Bool)
    (hN : ∀ s b, null s = .ok b → isNull s = b) (cb : Nat → Option PyErr) (h0 : cb 0 = none) (o : SheetArgs)
    (doc : XmlDoc) :
    ∃ r pre rest, xlsxSheetU styles null cb o doc = some r ∧ doc.events = pre ++ rest ∧
      r.1 = (xlsxSheet styles isNull o ⟨pre, false⟩).1 ∧ (xlsxSheet styles isNull o ⟨pre, false⟩).2.error? = none := by
  obtain ⟨pre, rest, h1, h2, h3⟩ := runXlsxU_prefix styles null isNull hN cb o doc.bad doc.events 1
    { take := o.takeRows + o.skipRows }
  refine ⟨_, pre, rest, by unfold xlsxSheetU; rw [h0], h1, ?_, h3⟩
  simp only [xlsxSheet, h2]

/-- C104 (XLSX), the whole read: it never returns if the first call raises (and the sheet is reached), and otherwise it
returns what it returns without a callback for a file whose sheet parts are beginnings of the sheet parts; what the callback
raises is not raised by `read`. -/
theorem C104_xlsx_read {A D : Type} (env : Env) (lib : Lib A D) (search : Str → Option (Str → Bool))
    (reMatch : Str → Str → Py Bool) (toInt : Str → Option Int) (isNull : Str → Bool) (cb : Nat → Option PyErr)
    (h0 : cb 0 = none) (o : ConcatOpts) (ia : IterArgs) (args : ReadArgs D) (f : XlsxFile) :
    ∃ parts : Str → Option XmlDoc,
      (∀ path, f.parts path = none → parts path = none) ∧
      (∀ path doc, f.parts path = some doc → ∃ pre rest, parts path = some ⟨pre, false⟩ ∧ doc.events = pre ++ rest) ∧
      readXlsxU env lib search reMatch toInt isNull cb o ia args f =
        some (readXlsx env lib search reMatch toInt isNull o ia args { f with parts := parts }) := by
  cases hsheets : xlsxSheets f.rels f.workbook with
  | error e =>
    refine ⟨fun p => (f.parts p).map fun d => ⟨[], false⟩, fun p h => by simp [h], fun p d h => ⟨[], d.events, by simp [h], rfl⟩, ?_⟩
    unfold readXlsxU readXlsx
    simp only [hsheets]
  | ok sheets =>
    cases hc : checkRows ia.skipRows ia.takeRows with
    | error e =>
      refine ⟨fun p => (f.parts p).map fun d => ⟨[], false⟩, fun p h => by simp [h], fun p d h => ⟨[], d.events, by simp [h], rfl⟩, ?_⟩
      unfold readXlsxU readXlsx
      simp only [hsheets, hc]
      cases selectSheet sheets ia.sheet <;> rfl
    | ok w =>
      cases hs : f.formats toInt with
      | error e =>
        refine ⟨fun p => (f.parts p).map fun d => ⟨[], false⟩, fun p h => by simp [h], fun p d h => ⟨[], d.events, by simp [h], rfl⟩, ?_⟩
        have hs' : XlsxFile.formats toInt { f with parts := fun p => (f.parts p).map fun d => ⟨[], false⟩ } = .error e := hs
        unfold readXlsxU readXlsx
        simp only [hsheets, hc, hs, hs']
        cases selectSheet sheets ia.sheet with
        | error e => rfl
        | ok path =>
          simp only
          cases f.parts path <;> rfl
      | ok styles =>
        have key := fun doc => C104_xlsx_silent styles (fun s => .ok (isNull s)) isNull (fun s b h => by injection h) cb h0
          ⟨w.1, w.2, ia.keepEmpty, ia.skipCols⟩ doc
        choose r pre rest k1 k2 k3 _ using key
        refine ⟨fun p => (f.parts p).map fun d => ⟨pre d, false⟩, fun p h => by simp [h],
          fun p d h => ⟨pre d, rest d, by simp [h], k2 d⟩, ?_⟩
        have hs' : XlsxFile.formats toInt { f with parts := fun p => (f.parts p).map fun d => ⟨pre d, false⟩ } = .ok styles := hs
        have hst : ∀ g, XlsxFile.strings isNull { f with parts := g } = f.strings isNull := fun _ => rfl
        unfold readXlsxU readXlsx
        simp only [hsheets, hc, hs, hs', hst]
        cases selectSheet sheets ia.sheet with
        | error e => rfl
        | ok path =>
          simp only
          cases hp : f.parts path with
          | none => simp [openPart]
          | some doc =>
            simp only [openPart, Option.map_some, k1 doc, k3 doc]
            split
            · rfl
            · cases f.strings isNull <;> rfl

/-- C104 (XLSX), the part that holds: if no call that is made raises, the callback makes no difference to `read`.  Missing:
calls that raise, where it is false (`C104_callback_finding`). -/
theorem C104_xlsx_partial {A D : Type} (env : Env) (lib : Lib A D) (search : Str → Option (Str → Bool))
    (reMatch : Str → Str → Py Bool) (toInt : Str → Option Int) (isNull : Str → Bool) (cb : Nat → Option PyErr)
    (o : ConcatOpts) (ia : IterArgs) (args : ReadArgs D) (f : XlsxFile)
    (h : ∀ path doc styles skip take, f.parts path = some doc → f.formats toInt = .ok styles → ia.skipRows = (skip : Nat) →
      ia.takeRows = (take : Nat) →
      ∀ j < evCallbacks (xlsxSheet styles isNull ⟨skip, take, ia.keepEmpty, ia.skipCols⟩ doc).1, cb j = none) :
    readXlsxU env lib search reMatch toInt isNull cb o ia args f =
      some (readXlsx env lib search reMatch toInt isNull o ia args f) := by
  unfold readXlsxU readXlsx
  cases xlsxSheets f.rels f.workbook with
  | error e => rfl
  | ok sheets =>
    simp only
    cases selectSheet sheets ia.sheet with
    | error e => rfl
    | ok path =>
      simp only
      cases hc : checkRows ia.skipRows ia.takeRows with
      | error e => rfl
      | ok w =>
        obtain ⟨skip, take⟩ := w
        simp only
        cases hp : f.parts path with
        | none => rfl
        | some doc =>
          simp only [openPart]
          cases hs : f.formats toInt with
          | error e => rfl
          | ok styles =>
            have hw : ia.skipRows = (skip : Nat) ∧ ia.takeRows = (take : Nat) := by
              unfold checkRows at hc
              split at hc
              · cases hc
              split at hc
              · cases hc
              · simp only [Except.ok.injEq, Prod.mk.injEq] at hc
                omega
            simp only [(C104_xlsx_exact styles isNull cb _ doc).2.2 (h path doc styles skip take hp hs hw.1 hw.2)]
            split
            · rfl
            · cases f.strings isNull <;> rfl

/-! ## XLSB -/

theorem xlsbCellU_total (styles : List Bytes) (isNull : Str → Bool) (nulls : List Bytes) (cols : List Int) (r : Record) :
    xlsbCellU styles (fun s => .ok (isNull s)) nulls cols r = xlsbCell styles isNull nulls cols r := by
  unfold xlsbCellU xlsbCell
  cases unpackI (pySlice r.data 0 4) with
  | error e => rfl
  | ok n =>
    simp only
    split
    · rfl
    split
    · cases unpackI (pySlice r.data 8 12) with
      | error e => rfl
      | ok n =>
        simp only
        cases decodeUtf16 (pySlice r.data 12 (n * 2 + 12)) with
        | error e => rfl
        | ok s =>
          simp only
          cases isNull s <;> rfl
    · rfl

/-- The loop when some call raises. -/
theorem iterXlsbU_raise (styles : List Bytes) (isNull : Str → Bool) (cb : Nat → Option PyErr) (nulls : Bool → List Bytes)
    (o : SheetArgs) (e : PyErr) : ∀ (rs : List Record) (k j : Nat) (st : XlsbState) (evs : List Ev),
      iterXlsb styles isNull nulls o rs st = .ok evs → (∀ i < j, cb (k + i) = none) → cb (k + j) = some e →
      j < evCallbacks evs → iterXlsbU styles (fun s => .ok (isNull s)) cb nulls o k rs st = .error e
  | [], k, j, st, evs, h, _, _, hj => by
    injection h with h
    subst h
    simp [evCallbacks] at hj
  | r :: rs, k, j, st, evs, h, h1, h2, hj => by
    rw [iterXlsb] at h
    rw [iterXlsbU, xlsbCellU_total]
    split at h
    · rename_i hr
      rw [if_pos hr]
      simp only at h ⊢
      generalize (if (!st.empty || o.keepEmpty) = true then st.row + 1 else st.row) = row at h ⊢
      split at h
      · injection h with h
        subst h
        simp [evCallbacks] at hj
      · rename_i ht
        rw [if_neg ht]
        split at h
        · cases h
        · rename_i evs' he
          injection h with h
          subst h
          split at hj
          · rename_i hs
            rw [if_pos hs]
            simp only [evCallbacks, List.count_cons_self] at hj
            cases j with
            | zero =>
              have : cb k = some e := h2
              rw [this]
            | succ j =>
              have hk : cb k = none := h1 0 (by omega)
              rw [hk]
              simp only
              rw [iterXlsbU_raise styles isNull cb nulls o e rs (k + 1) j _ evs' he
                (fun i hi => by rw [← h1 (i + 1) (by omega)]; congr 1; omega) (by rw [← h2]; congr 1; omega)
                (by unfold evCallbacks; omega)]
          · rename_i hs
            rw [if_neg hs]
            exact iterXlsbU_raise styles isNull cb nulls o e rs k j _ evs' he h1 h2 hj
    · rename_i hr
      rw [if_neg hr]
      split at h
      · rename_i hs
        rw [if_pos hs]
        exact iterXlsbU_raise styles isNull cb nulls o e rs k j st evs h h1 h2 hj
      · rename_i hs
        rw [if_neg hs]
        split at h
        · rename_i hl
          rw [if_pos hl]
          injection h with h
          subst h
          have hj0 : j = 0 := by simp [evCallbacks] at hj; exact hj
          subst hj0
          have : cb k = some e := h2
          rw [this]
        · rename_i hl
          rw [if_neg hl]
          cases hc : xlsbCell styles isNull (nulls st.seen) o.skipCols r with
          | error e => rw [hc] at h; cases h
          | ok c =>
            rw [hc] at h
            cases c with
            | none => exact iterXlsbU_raise styles isNull cb nulls o e rs k j st evs h h1 h2 hj
            | some c =>
              obtain ⟨col, xdt, v⟩ := c
              simp only at h ⊢
              cases hi : iterXlsb styles isNull nulls o rs { st with empty := false, seen := true } with
              | error e => rw [hi] at h; cases h
              | ok evs' =>
                rw [hi] at h
                injection h with h
                subst h
                rw [iterXlsbU_raise styles isNull cb nulls o e rs k j _ evs' hi h1 h2 (by
                  rw [evCallbacks, List.count_cons_of_ne (by simp)] at hj; exact hj)]

/-- The loop when it returns: then no call has raised, nor the null test, and the result is that without them. -/
theorem iterXlsbU_ok (styles : List Bytes) (null : Str → Py Bool) (isNull : Str → Bool)
    (hN : ∀ s b, null s = .ok b → isNull s = b) (cb : Nat → Option PyErr) (nulls : Bool → List Bytes) (o : SheetArgs) :
    ∀ (rs : List Record) (k : Nat) (st : XlsbState) (evs : List Ev),
      iterXlsbU styles null cb nulls o k rs st = .ok evs →
      iterXlsb styles isNull nulls o rs st = .ok evs ∧ ∀ i < evCallbacks evs, cb (k + i) = none := by
  have hcell : ∀ (ns : List Bytes) (r : Record) c, xlsbCellU styles null ns o.skipCols r = .ok c →
      xlsbCell styles isNull ns o.skipCols r = .ok c := by
    intro ns r c h
    unfold xlsbCellU at h
    unfold xlsbCell
    cases h1 : unpackI (pySlice r.data 0 4) with
    | error e => rw [h1] at h; cases h
    | ok n =>
      rw [h1] at h
      simp only at h ⊢
      split at h
      · rename_i hc
        rw [if_pos hc]
        exact h
      · rename_i hc
        rw [if_neg hc]
        split at h
        · rename_i hr
          rw [if_pos hr]
          cases h2 : unpackI (pySlice r.data 8 12) with
          | error e => rw [h2] at h; cases h
          | ok n =>
            rw [h2] at h
            simp only at h ⊢
            cases h3 : decodeUtf16 (pySlice r.data 12 (n * 2 + 12)) with
            | error e => rw [h3] at h; cases h
            | ok s =>
              rw [h3] at h
              simp only at h ⊢
              cases h4 : null s with
              | error e => rw [h4] at h; cases h
              | ok b =>
                rw [h4] at h
                rw [hN _ _ h4]
                cases b <;> exact h
        · rename_i hr
          rw [if_neg hr]
          exact h
  intro rs
  induction rs with
  | nil =>
    intro k st evs h
    injection h with h
    subst h
    exact ⟨rfl, fun i hi => by simp [evCallbacks] at hi⟩
  | cons r rs ih =>
    intro k st evs h
    rw [iterXlsbU] at h
    rw [iterXlsb]
    split at h
    · rename_i hr
      rw [if_pos hr]
      simp only at h ⊢
      generalize (if (!st.empty || o.keepEmpty) = true then st.row + 1 else st.row) = row at h ⊢
      split at h
      · rename_i ht
        rw [if_pos ht]
        injection h with h
        subst h
        exact ⟨rfl, fun i hi => by simp [evCallbacks] at hi⟩
      · rename_i ht
        rw [if_neg ht]
        split at h
        · rename_i hs
          split at h
          · cases h
          · rename_i hk
            split at h
            · cases h
            · rename_i evs' he
              injection h with h
              subst h
              obtain ⟨i1, i2⟩ := ih _ _ _ he
              rw [i1]
              refine ⟨by simp only [if_pos hs], fun i hi => ?_⟩
              cases i with
              | zero => exact hk
              | succ i =>
                simp only [evCallbacks, List.count_cons_self] at hi
                rw [← i2 i (by unfold evCallbacks; omega)]
                congr 1
                omega
        · rename_i hs
          obtain ⟨i1, i2⟩ := ih _ _ _ h
          rw [i1]
          exact ⟨by simp only [if_neg hs], i2⟩
    · rename_i hr
      rw [if_neg hr]
      split at h
      · rename_i hs
        rw [if_pos hs]
        exact ih _ _ _ h
      · rename_i hs
        rw [if_neg hs]
        split at h
        · rename_i hl
          rw [if_pos hl]
          split at h
          · cases h
          · rename_i hk
            injection h with h
            subst h
            refine ⟨rfl, fun i hi => ?_⟩
            have : i = 0 := by simp [evCallbacks] at hi; exact hi
            subst this
            exact hk
        · rename_i hl
          rw [if_neg hl]
          cases hc : xlsbCellU styles null (nulls st.seen) o.skipCols r with
          | error e => rw [hc] at h; cases h
          | ok c =>
            rw [hc] at h
            rw [hcell _ _ _ hc]
            cases c with
            | none => exact ih _ _ _ h
            | some c =>
              obtain ⟨col, xdt, v⟩ := c
              simp only at h ⊢
              cases hi : iterXlsbU styles null cb nulls o k rs { st with empty := false, seen := true } with
              | error e => rw [hi] at h; cases h
              | ok evs' =>
                rw [hi] at h
                injection h with h
                subst h
                obtain ⟨i1, i2⟩ := ih _ _ _ hi
                rw [i1]
                refine ⟨rfl, fun i hi => i2 i ?_⟩
                rw [evCallbacks, List.count_cons_of_ne (by simp)] at hi
                exact hi

/-- The loop when no call raises. -/
theorem iterXlsbU_returns (styles : List Bytes) (isNull : Str → Bool) (cb : Nat → Option PyErr) (nulls : Bool → List Bytes)
    (o : SheetArgs) : ∀ (rs : List Record) (k : Nat) (st : XlsbState) (evs : List Ev),
      iterXlsb styles isNull nulls o rs st = .ok evs → (∀ i < evCallbacks evs, cb (k + i) = none) →
      iterXlsbU styles (fun s => .ok (isNull s)) cb nulls o k rs st = .ok evs
  | [], k, st, evs, h, _ => h
  | r :: rs, k, st, evs, h, h1 => by
    rw [iterXlsb] at h
    rw [iterXlsbU, xlsbCellU_total]
    split at h
    · rename_i hr
      rw [if_pos hr]
      simp only at h ⊢
      generalize (if (!st.empty || o.keepEmpty) = true then st.row + 1 else st.row) = row at h ⊢
      split at h
      · rename_i ht
        rw [if_pos ht]
        exact h
      · rename_i ht
        rw [if_neg ht]
        split at h
        · cases h
        · rename_i evs' he
          injection h with h
          subst h
          split at h1
          · rename_i hs
            rw [if_pos hs, if_pos hs]
            simp only [evCallbacks, List.count_cons_self] at h1
            have hk : cb k = none := h1 0 (by omega)
            rw [hk]
            simp only
            rw [iterXlsbU_returns styles isNull cb nulls o rs (k + 1) _ evs' he fun i hi => by
              rw [← h1 (i + 1) (by unfold evCallbacks at hi; omega)]; congr 1; omega]
          · rename_i hs
            rw [if_neg hs, if_neg hs]
            exact iterXlsbU_returns styles isNull cb nulls o rs k _ evs' he h1
    · rename_i hr
      rw [if_neg hr]
      split at h
      · rename_i hs
        rw [if_pos hs]
        exact iterXlsbU_returns styles isNull cb nulls o rs k st evs h h1
      · rename_i hs
        rw [if_neg hs]
        split at h
        · rename_i hl
          rw [if_pos hl]
          injection h with h
          subst h
          have hk : cb k = none := h1 0 (by simp [evCallbacks])
          rw [hk]
        · rename_i hl
          rw [if_neg hl]
          cases hc : xlsbCell styles isNull (nulls st.seen) o.skipCols r with
          | error e => rw [hc] at h; cases h
          | ok c =>
            rw [hc] at h
            cases c with
            | none => exact iterXlsbU_returns styles isNull cb nulls o rs k st evs h h1
            | some c =>
              obtain ⟨col, xdt, v⟩ := c
              simp only at h ⊢
              cases hi : iterXlsb styles isNull nulls o rs { st with empty := false, seen := true } with
              | error e => rw [hi] at h; cases h
              | ok evs' =>
                rw [hi] at h
                injection h with h
                subst h
                rw [iterXlsbU_returns styles isNull cb nulls o rs k _ evs' hi fun i hi => h1 i (by
                  rw [evCallbacks, List.count_cons_of_ne (by simp)]; exact hi)]

/-- What happens in a read of the sheet: the calls of the callback and the cells delivered. -/
def XlsbFile.happens (isNull : Str → Bool) (ia : IterArgs) (f : XlsbFile) : Py (List Ev) := do
  let sheets ← xlsbSheets f.rels f.workbook
  let path ← selectSheet sheets ia.sheet
  let window ← checkRows ia.skipRows ia.takeRows
  let part ← openPart (f.parts path)
  let styles ← f.temporal
  let strings ← f.strings isNull
  xlsbSheet styles isNull (fun seen => if seen then strings.2 else []) ⟨window.1, window.2, ia.keepEmpty, ia.skipCols⟩ part

theorem bind_ok {α β : Type} {x : Py α} {g : α → Py β} {b : β} (h : (x >>= g) = .ok b) : ∃ a, x = .ok a ∧ g a = .ok b := by
  cases x with
  | error e => cases h
  | ok a => exact ⟨a, rfl, h⟩

/-- C104 (XLSB), as stated: the first call that raises ends the read with its exception (a StopIteration as RuntimeError);
if none does the callback makes no difference. -/
theorem C104_xlsb {A D : Type} (env : Env) (lib : Lib A D) (search : Str → Option (Str → Bool))
    (reMatch : Str → Str → Py Bool) (isNull : Str → Bool) (cb : Nat → Option PyErr) (o : ConcatOpts) (ia : IterArgs)
    (args : ReadArgs D) (f : XlsbFile) (evs : List Ev) (h : f.happens isNull ia = .ok evs) :
    (∀ j e, FirstRaise cb j e → j < evCallbacks evs →
      readXlsbU env lib search reMatch isNull cb o ia args f = .error (leaveGenerator e)) ∧
    ((∀ j < evCallbacks evs, cb j = none) →
      readXlsbU env lib search reMatch isNull cb o ia args f = readXlsb env lib search reMatch isNull o ia args f) := by
  obtain ⟨sheets, h1, h⟩ := bind_ok h
  obtain ⟨path, h2, h⟩ := bind_ok h
  obtain ⟨⟨skip, take⟩, h3, h⟩ := bind_ok h
  obtain ⟨part, h4, h⟩ := bind_ok h
  obtain ⟨styles, h5, h⟩ := bind_ok h
  obtain ⟨⟨shared, nulls⟩, h6, h7⟩ := bind_ok h
  simp only at h7
  unfold readXlsbU readXlsb
  simp only [h1, h2, h3, h4, h5, h6, h7]
  unfold xlsbSheet at h7
  constructor
  · rintro j e ⟨r1, r2⟩ hj
    rw [iterXlsbU_raise styles isNull cb _ _ e _ 0 j {} evs h7 (fun i hi => by rw [Nat.zero_add]; exact r1 i hi)
      (by rw [Nat.zero_add]; exact r2) hj]
  · intro hn
    rw [iterXlsbU_returns styles isNull cb _ _ _ 0 {} evs h7 fun i hi => by rw [Nat.zero_add]; exact hn i hi]

/-- C104 (XLSB), for `null_values` and the callback together: if the cells are delivered to the end, then no call has raised,
and they are those without the functions raising anywhere. -/
theorem C104_xlsb_no_loss (styles : List Bytes) (null : Str → Py Bool) (isNull : Str → Bool)
    (hN : ∀ s b, null s = .ok b → isNull s = b) (cb : Nat → Option PyErr) (nulls : Bool → List Bytes) (o : SheetArgs)
    (part : Bytes) (evs : List Ev)
    (h : iterXlsbU styles null cb nulls o 0 (scanBiff (some sheetIds) part) {} = .ok evs) :
    xlsbSheet styles isNull nulls o part = .ok evs ∧ ∀ i < evCallbacks evs, cb i = none := by
  obtain ⟨h1, h2⟩ := iterXlsbU_ok styles null isNull hN cb nulls o _ 0 {} evs h
  exact ⟨h1, fun i hi => by rw [← h2 i hi, Nat.zero_add]⟩

/-- The XLSX and XLSB example files read with a callback that raises KeyError in call `j`. -/
def exRaiseX (j : Nat) : Option (Py (List Fetched)) :=
  (readXlsxU demoEnv exLib (fun _ => none) (fun _ _ => .ok false) exInt (fun s => s == ['-'])
    (fun k => if k = j then some .keyError else none) exConcat {} {} exXlsxFile).map fun r => r.map (·.arrays)
@[inherit_doc exRaiseX] def exRaiseB (j : Nat) : Py (List Fetched) :=
  (readXlsbU demoEnv exLib (fun _ => none) (fun _ _ => .ok false) (fun s => s == ['-'])
    (fun k => if k = j then some .keyError else none) exConcat {} {} exFile).map (·.arrays)

/-- C104, finding: on an XLSX file the exception does not reach the caller.  In the first call it makes `read` hang; in a
later call (here 1 or 3) it makes it return a table of the rows before, here the first row only; a call that is not made
changes nothing. -/
theorem C104_callback_finding : exRaiseX 0 = none ∧
    exRaiseX 1 = some (.ok [.arr ⟨.utf8, [some (.str ['y', 'z'])]⟩, .arr ⟨.utf8, [some (.str ['q'])]⟩]) ∧
    exRaiseX 3 = exRaiseX 1 ∧
    exRaiseX 5 = some (exReadX {}) := by
  decide +kernel

/-- In the XLSB file it does. -/
example : exRaiseB 0 = .error .keyError ∧ exRaiseB 1 = .error .keyError ∧ exRaiseB 9 = exReadB {} := by decide +kernel

/-- A `null_values` that raises on the text `q`: the XLSX worker stops there. -/
example : (xlsxSheetU [] (fun s => if s = ['q'] then .error .valueError else .ok false) (fun _ => none) {}
      ⟨exTSheet.events, false⟩).map (fun r => (evCells r.1, r.2)) =
    some ([⟨0, 0, 0x11, .text ['1']⟩], .died .valueError) := by decide +kernel

example : FirstRaise (fun k => if k = 3 then some .keyError else none) 3 .keyError ∧
    (exFile.happens (fun s => s == ['-']) {}).map evCallbacks = .ok 5 ∧
    beforeCallback 1 [.callback, .cell ⟨0, 0, 0x18, .text ['a']⟩, .callback, .callback] =
      [.callback, .cell ⟨0, 0, 0x18, .text ['a']⟩] := by
  refine ⟨⟨fun i hi => by simp; omega, rfl⟩, by decide +kernel, by decide +kernel⟩

end Rxls
