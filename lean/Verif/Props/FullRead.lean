import Verif.Lemmas.HistoryGrid
import Verif.Lemmas.Escape
import Verif.Props.Archive

/-! # Properties C63, C64, C69 and C85 with null shared strings and any conflict resolution -/

namespace Rxls

/-- `Holds` is the case that every shared string has a text and no number of one is null. -/
theorem XlsxFile.Holds.stores {f : XlsxFile} {env : Env} {toInt : Str → Option Int} {sheet : SheetArg}
    {isNull : Str → Bool} {formats : List StyleClass} {shared : List Str} {g : TGrid}
    (h : f.Holds env toInt sheet isNull formats shared g) :
    f.Stores env toInt sheet isNull formats (shared.map some) g := by
  obtain ⟨pre, post, items, s1, s2, s3, s4, s5⟩ := h.sst
  refine ⟨h.path, h.styles, ⟨pre, post, items, s1, s2, s3, s4, s5.symm⟩, fun row hr c hc => ?_⟩
  have hf := h.fits row hr c hc
  refine ⟨hf.digits, hf.style, hf.more, hf.before, fun i hi => ⟨(hf.index i hi).1, (hf.index i hi).2.1⟩, fun hp => ?_⟩
  have hb : c.blank isNull = false := by
    unfold TCell.blank
    unfold TCell.passed at hp
    cases hc : c.content <;> rw [hc] at hp
    exact hp
  have := hf.value hb
  unfold TCell.value at this
  unfold TCell.held
  cases hc : c.content <;> rw [hc] at this <;> simp only at this ⊢
  · simpa using this
  · cases hcl : c.cls formats <;> rw [hcl] at this <;> simp at this ⊢ <;> exact this

/-- C63.  Reading an XLSX file whose parts hold a grid, with any arguments and any conflict resolution, shared strings
without a text included: `ValueError` if no cell is in the rows and columns asked for, or if there are no data rows; `ArrowNotImplementedError` if
temporal resolution meets a shared string that no reading before has looked up; else the table of the cells, resolved
run by run. -/
theorem C63_xlsx_full {A D : Type} (env : Env) (lib : Lib A D) (search : Str → Option (Str → Bool))
    (reMatch : Str → Str → Py Bool) (toInt : Str → Option Int) (isNull : Str → Bool) (o : ConcatOpts)
    (k t : Nat) (keep : Bool) (cols : List Int) (sheet : SheetArg)
    (args : ReadArgs D) (ha : args.Sensible) (f : XlsxFile) (formats : List StyleClass) (shared : List (Option Str))
    (g : TGrid) (h : f.Stores env toInt sheet isNull formats shared g) (H : HGrid)
    (hH : H = (g.held env isNull formats shared).shownXlsx k t keep cols)
    (hdata : H.flatten ≠ [] → H.DataOrEnd env search reMatch args o) :
    readXlsx env lib search reMatch toInt isNull o
        { sheet := sheet, skipRows := k, takeRows := t, keepEmpty := keep, skipCols := cols } args f =
      H.outcome env lib search reMatch args o := by
  obtain ⟨sheets, path, s, e1, e2, e3, e4, hpre, hpost⟩ := h.path
  obtain ⟨es, t1, t2, t3, t4, t5⟩ := h.styles
  obtain ⟨pre, post, items, s1, s2, s3, s4, s5⟩ := h.sst
  obtain ⟨styles, hst, hcls⟩ := C50_classification toInt es t2 t3 t4
  have hs : ∀ i < formats.length,
      (styles.find? fun p => p.1 = pyStr i).map (·.2) = (formats.getD i .other).tag := by
    intro i hi
    rw [t5, List.length_map] at hi
    have hy : (cellFmts es)[i]? = some (cellFmts es)[i] := List.getElem?_eq_getElem hi
    obtain ⟨n, hn⟩ := Option.isSome_iff_exists.mp (t4 _ (List.getElem_mem hi))
    rw [hcls i _ n hy hn, t5]
    simp [hi, hn]
  obtain ⟨entries, nulls, hsh, hen, _⟩ := C46_xlsx_aligned isNull pre post items s2 s3 s4
  rw [hen, ← s5] at hsh
  have hm := grid_hmeans hs g h.fits
  have hrows : s.rows.map (XRow.items styles isNull []) =
      g.map fun row => (row.map TCell.xml).flatMap (XCell.items styles isNull []) := by
    have : s.rows.map (XRow.items styles isNull []) =
        (s.rows.map (·.cells)).map fun cs => cs.flatMap (XCell.items styles isNull []) := by
      rw [List.map_map]; rfl
    rw [this, e4, List.map_map]
    rfl
  have hok : s.Ok := by
    have hmem : ∀ r ∈ s.rows, ∀ c ∈ r.cells, ∃ row ∈ g, ∃ d ∈ row, d.xml = c := by
      intro r hr c hc
      have : r.cells ∈ g.map (List.map TCell.xml) := by rw [← e4]; exact List.mem_map_of_mem hr
      obtain ⟨row, hrow, e⟩ := List.mem_map.mp this
      rw [← e] at hc
      obtain ⟨d, hd, rfl⟩ := List.mem_map.mp hc
      exact ⟨row, hrow, d, hd, rfl⟩
    refine ⟨hpre, hpost, ?_, ?_⟩
    · intro r hr c hc e he
      obtain ⟨row, hrow, d, hd, rfl⟩ := hmem r hr c hc
      simp only [TCell.xml, List.mem_append, List.mem_cons, List.not_mem_nil, or_false] at he
      rcases he with he | rfl | rfl | rfl
      · exact ((h.fits row hrow d hd).before e he).1
      · exact ⟨by decide, by decide⟩
      · trivial
      · exact ⟨by decide, by decide⟩
    · intro r hr c hc
      obtain ⟨row, hrow, d, hd, rfl⟩ := hmem r hr c hc
      rw [TCell.xml]
      simp only
      rw [attrs_ref]
      rfl
  have hdel := xlsx_delivers styles isNull k t keep cols s hok
  have hLV := forall2_xlsxRows (hmeans_without hm cols) k t keep
  rw [hrows] at hdel
  subst hH
  unfold readXlsx
  simp only [e1, e2, checkRows, e3, openPart, XlsxFile.formats, t1, hst, XlsxFile.strings, s1, hsh]
  simp only [show ¬ ((t : Int) < 0) by omega, show ¬ ((k : Int) < 0) by omega, if_false, Int.toNat_natCast]
  rw [show (xlsxSheet styles isNull ⟨k, t, keep, cols⟩ ⟨s.events, false⟩).1.filterMap Ev.cell? =
      evCells (xlsxSheet styles isNull ⟨k, t, keep, cols⟩ ⟨s.events, false⟩).1 from rfl, hdel]
  refine Eq.trans ?_ (readCells_outcome hLV o lib search reMatch args ha hdata)
  split
  · rename_i h0
    rw [List.isEmpty_iff.mp h0]
    rfl
  · rfl

/-- C63, C64, C57.  Of the condition on data rows in `C63_xlsx_full` and the theorems below: it holds if there is a
data row; and, if there are no row filters, it holds if there is a cell in the first row, and so in every sheet when
rows without a value are dropped (`take_rows_non_empty` false, the default). -/
theorem C57_data_or_end {D : Type} (env : Env) (search : Str → Option (Str → Bool)) (reMatch : Str → Str → Py Bool)
    (args : ReadArgs D) (ha : args.Sensible) (o : ConcatOpts) (isNull : Str → Bool) (k t : Nat) (cols : List Int) (H : HGrid) :
    (H.HasData env search args o → H.DataOrEnd env search reMatch args o) ∧
    (args.filters = .none →
      (H.getD 0 [] ≠ [] → H.DataOrEnd env search reMatch args o) ∧
      ((H.shownXlsx k t false cols).flatten ≠ [] →
        (H.shownXlsx k t false cols).DataOrEnd env search reMatch args o) ∧
      ((H.shownXlsb isNull k t false cols).flatten ≠ [] →
        (H.shownXlsb isNull k t false cols).DataOrEnd env search reMatch args o)) := by
  refine ⟨fun h => h.orEnd reMatch, fun hf => ⟨first_row_end reMatch ha hf, fun h => ?_, fun h => ?_⟩⟩
  · refine first_row_end reMatch ha hf ?_
    unfold HGrid.shownXlsx xlsxRows at h ⊢
    simp only [Bool.false_eq_true, if_false] at h ⊢
    split at h
    · rename_i hk
      rw [if_pos hk]
      have hw : ∀ L : HGrid, L.dropWhile List.isEmpty ≠ [] → (L.dropWhile List.isEmpty).getD 0 [] ≠ [] := by
        intro L hL
        have := List.head_dropWhile_not List.isEmpty hL
        cases hd : L.dropWhile List.isEmpty with
        | nil => exact absurd hd hL
        | cons r L' =>
          simp only [hd, List.head_cons] at this
          simpa using this
      split at h
      · rename_i ht
        rw [if_pos ht]
        exact hw _ (by rintro h0; rw [h0] at h; exact h rfl)
      · rename_i ht
        rw [if_neg ht]
        have := hw (HGrid.without cols H) (by rintro h0; rw [h0] at h; exact h (by simp))
        cases hd : (HGrid.without cols H).dropWhile List.isEmpty with
        | nil => rw [hd] at this; simp at this
        | cons r L' => rw [hd] at this; simpa using this
    · exact absurd rfl h
  · refine first_row_end reMatch ha hf ?_
    unfold HGrid.shownXlsb xlsbRows at h ⊢
    simp only [Bool.false_eq_true, if_false] at h ⊢
    generalize HGrid.without cols H = L at h ⊢
    generalize L.take k ++ keepFirst (fun c => !nullShared isNull c) (L.drop k) = W at h ⊢
    split at h
    · rename_i hk
      rw [if_pos hk]
      have hw : W.filter (· ≠ []) ≠ [] → (W.filter (· ≠ [])).getD 0 [] ≠ [] := by
        intro hL
        cases hd : W.filter (· ≠ []) with
        | nil => exact absurd hd hL
        | cons r L' =>
          have : r ∈ W.filter (· ≠ []) := by rw [hd]; simp
          have := (List.mem_filter.mp this).2
          simpa using this
      split at h
      · rename_i ht
        rw [if_pos ht]
        exact hw (by rintro h0; rw [h0] at h; exact h rfl)
      · rename_i ht
        rw [if_neg ht]
        have := hw (by rintro h0; rw [h0] at h; exact h (by simp))
        cases hd : W.filter (· ≠ []) with
        | nil => rw [hd] at this; simp at this
        | cons r L' => rw [hd] at this; simpa using this
    · exact absurd rfl h

/-- C63, C64.  If no column has both moments and shared strings, or temporal resolution is off, then there is a table
whenever there are cells and data rows. -/
theorem C63_no_clash {A D : Type} (env : Env) (lib : Lib A D) (search : Str → Option (Str → Bool))
    (reMatch : Str → Str → Py Bool) (args : ReadArgs D) (o : ConcatOpts) (H : HGrid) (hne : H.flatten ≠ [])
    (hd : H.Datable o) (hdata : H.HasData env search args o) :
    H.outcome env lib search reMatch args o = H.table env lib search reMatch args o := by
  rw [HGrid.outcome, if_neg hne, clashes_false env search reMatch args o H hd, if_neg (by decide)]
  exact sheetResult_data hdata

/-- C57, C63, C64.  Without data rows there is no table: the header is not found, its names cannot be read, a filter is
wrong, or `ValueError` because there are no rows. -/
theorem C57_no_data {A D : Type} (env : Env) (lib : Lib A D) (search : Str → Option (Str → Bool))
    (reMatch : Str → Str → Py Bool) (args : ReadArgs D) (o : ConcatOpts) (H : HGrid) (row : Nat)
    (hrow : lookupRowV env (H.view env o) H.shape.seen args.lookupSize.toNat search args.lookup = .ok (some row))
    (hno : (H.shape.maxSpan : Int) ≤ row + args.header.height + args.skipAfter) :
    ∃ e, H.outcome env lib search reMatch args o = .error e ∧ (H.Datable o → args.filters = .none →
      (∀ e, namesForV env (H.view env o) H.shape.columns row args.header ≠ .error e) → e = .valueError) := by
  unfold HGrid.outcome
  by_cases hne : H.flatten = []
  · rw [if_pos hne]; exact ⟨_, rfl, fun _ _ _ => rfl⟩
  rw [if_neg hne]
  by_cases hc : H.clashes env search reMatch args o = true
  · rw [if_pos hc]
    refine ⟨_, rfl, fun hd => ?_⟩
    rw [clashes_false env search reMatch args o H hd] at hc
    simp at hc
  rw [if_neg hc]
  unfold sheetResult
  rw [hrow]
  simp only
  rw [if_neg (by omega)]
  cases hn : namesForV env (H.view env o) H.shape.columns row args.header with
  | error e => exact ⟨e, rfl, fun _ _ h => absurd rfl (h e)⟩
  | ok names =>
    simp only
    cases hf : filterKeys reMatch names H.shape.columns args.filters with
    | error e =>
      refine ⟨e, rfl, fun _ h _ => ?_⟩
      rw [h, filterKeys] at hf
      simp at hf
    | ok fs => exact ⟨_, rfl, fun _ _ _ => rfl⟩

theorem XlsbFile.Holds.stores {f : XlsbFile} {sheet : SheetArg} {isNull : Str → Bool} {temporal : List Bytes}
    {shared : List Str} {g : Grid} (h : f.Holds sheet isNull temporal shared g) :
    f.Stores sheet temporal shared g := by
  obtain ⟨b, items, s1, s2, s3, s4, s5⟩ := h.sst
  exact ⟨h.path, h.styles, ⟨b, items, s1, s2, s3, fun x hx => ⟨(s4 x hx).1, (s4 x hx).2.1⟩, s5⟩, h.fits⟩

/-- The null keys of these shared strings. -/
def nullKeys (isNull : Str → Bool) (shared : List Str) : List Bytes :=
  (shared.zipIdx.filter fun p => isNull p.1).map fun p => le32 p.2

theorem XlsbFile.Stores.strings_eq {f : XlsbFile} {sheet : SheetArg} {temporal : List Bytes} {shared : List Str}
    {g : Grid} (h : f.Stores sheet temporal shared g) (isNull : Str → Bool) :
    f.strings isNull = .ok (shared.map some, nullKeys isNull shared) ∧ shared.length ≤ 2 ^ 32 := by
  obtain ⟨sb, items, s0, s1, s2, s3, s4⟩ := h.sst
  refine ⟨?_, by rw [s4]; simpa using s2⟩
  simp only [XlsbFile.strings, s0, openPart]
  rw [xlsbShared, s1, sharedFrom_items isNull items 0 (by omega) s3, s4, List.map_map, nullKeys, List.zipIdx_map,
    List.filter_map, List.map_map]
  rfl

theorem mem_nullKeys {isNull : Str → Bool} {shared : List Str} (hl : shared.length ≤ 2 ^ 32) {i : Nat}
    (hi : i < shared.length) : le32 i ∈ nullKeys isNull shared ↔ isNull (shared.getD i []) = true := by
  unfold nullKeys
  rw [List.mem_map]
  constructor
  · rintro ⟨⟨s, j⟩, hm, he⟩
    obtain ⟨hm, hn⟩ := List.mem_filter.mp hm
    have hj := List.mem_zipIdx hm
    simp only [Nat.zero_add, Nat.sub_zero] at hj
    have : j = i := le32_inj (by omega) (by omega) he
    subst this
    rw [List.getD_eq_getElem?_getD, List.getElem?_eq_getElem hi]
    simpa [← hj.2.2] using hn
  · intro hn
    rw [List.getD_eq_getElem?_getD, List.getElem?_eq_getElem hi] at hn
    refine ⟨(shared[i], i), List.mem_filter.mpr ⟨?_, by simpa using hn⟩, rfl⟩
    rw [List.mk_mem_zipIdx_iff_getElem?]
    exact List.getElem?_eq_getElem hi

/-- A cell from the sheet stands for a cell of the grid, and is null exactly if that one is a null shared string. -/
def LMeans (env : Env) (isNull : Str → Bool) (shared : List Str) (it : Item) (p : Int × Nat × Option Val) : Prop :=
  HMeans env true (shared.map some) it p ∧ itemNull (nullKeys isNull shared) it = nullShared isNull p

theorem grid_lmeans (env : Env) (isNull : Str → Bool) (temporal : List Bytes) (shared : List Str) (g : Grid)
    (hl : shared.length ≤ 2 ^ 32) (hf : ∀ row ∈ g, ∀ c ∈ row, c.Fits shared.length) :
    List.Forall₂ (List.Forall₂ (LMeans env isNull shared))
      (g.map fun row => (row.filter fun c => !c.blank isNull).map fun c =>
        ((c.col : Int), c.content.tag (temporal.contains c.style), c.content.raw)) (g.held temporal shared isNull) := by
  unfold Grid.held
  rw [List.forall₂_map_left_iff, List.forall₂_map_right_iff, List.forall₂_same]
  intro row hrow
  rw [List.forall₂_map_left_iff, List.forall₂_map_right_iff, List.forall₂_same]
  intro c hc
  have hfit := hf row hrow c (List.mem_filter.mp hc).1
  refine ⟨⟨rfl, rfl, GCell.rawValue_eq env temporal shared c hfit⟩, ?_⟩
  unfold itemNull nullShared GCell.value
  cases hcon : c.content with
  | shared i =>
    have hi := hfit.2.2.2.2 i hcon
    have hw : i < 2 ^ 32 := by have := hfit.2.2.1; rw [hcon] at this; exact this
    have := mem_nullKeys (isNull := isNull) hl hi
    simp only [Content.tag, Content.raw, Content.bytes, decide_true, Bool.true_and]
    rw [Bool.eq_iff_iff, ← this]
    simp
  | rk w => cases temporal.contains c.style <;> simp [Content.tag]
  | real w => cases temporal.contains c.style <;> simp [Content.tag]
  | bool b => cases temporal.contains c.style <;> simp [Content.tag]
  | text s => cases temporal.contains c.style <;> simp [Content.tag]

theorem forall2_without {R : Item → Int × Nat × Option Val → Prop} (hR : ∀ i p, R i p → i.1 = p.1) (cols : List Int)
    {L : List (List Item)} {H : HGrid} (h : List.Forall₂ (List.Forall₂ R) L H) :
    List.Forall₂ (List.Forall₂ R) (L.map fun is => is.filter fun i => !cols.contains i.1) (H.without cols) := by
  unfold HGrid.without
  rw [List.forall₂_map_left_iff, List.forall₂_map_right_iff]
  refine h.imp fun l m hr => ?_
  induction hr with
  | nil => exact .nil
  | @cons i p l m h1 _ ih =>
    have e := hR i p h1
    by_cases hc : p.1 ∈ cols
    · simpa [List.filter_cons, e, hc] using ih
    · rw [List.filter_cons_of_pos (by simpa [e] using hc), List.filter_cons_of_pos (by simpa using hc)]
      exact .cons h1 ih

theorem XlsbFile.Stores.parts_ok {f : XlsbFile} {sheet : SheetArg} {temporal : List Bytes} {shared : List Str}
    {g : Grid} (h : f.Stores sheet temporal shared g) (isNull : Str → Bool) (hdrs : Nat → Bytes) {tail : List Record}
    (e6 : tail = [] ∨ ∃ e post, tail = e :: post ∧ e.recId = 402) (e7 : ∀ r ∈ tail, r.recId ≠ 0) :
    ∃ p : SheetParts, p.Ok ∧ (∀ r ∈ p.tail, r.recId ≠ 0) ∧ p.records = g.records hdrs ++ tail ∧
      sheetItems (xlsbCell temporal isNull [] []) p.rows =
        .ok (g.map fun row => (row.filter fun c => !c.blank isNull).map fun c =>
          ((c.col : Int), c.content.tag (temporal.contains c.style), c.content.raw)) := by
  by_cases hg : g = []
  · subst hg
    refine ⟨⟨tail, [], []⟩, ⟨e7, by simp, .inl rfl, fun _ => rfl⟩, by simp, ?_, rfl⟩
    simp [SheetParts.records, Grid.records]
  · have hids : ∀ c : Content, ∀ i ∈ c.ids, i ≠ 0 ∧ i ≠ 402 := by
      intro c i hi
      cases c <;> simp [Content.ids] at hi <;> omega
    refine ⟨g.parts hdrs tail, ⟨by simp [Grid.parts], ?_, e6, ?_⟩, e7, g.parts_records hdrs tail,
      sheetItems_grid temporal isNull shared.length hdrs g 0 h.fits⟩
    · intro row hrow r hr
      obtain ⟨q, hq, rfl⟩ := List.mem_map.mp hrow
      obtain ⟨c, hc, rfl⟩ := List.mem_map.mp hr
      exact hids _ _ (h.fits _ (List.fst_mem_of_mem_zipIdx hq) c hc).2.2.2.1
    · intro h0
      have : g = [] := by simpa [Grid.parts] using h0
      exact absurd this hg

/-- C64.  Reading an XLSB file whose parts hold a grid, with any arguments and any conflict resolution, null shared
strings included: a cell of one is left out, but for the first cell from the rows and columns asked for.  `ValueError`
if no cell is left, `ArrowNotImplementedError` if temporal resolution meets a shared string that no reading before has
looked up, else the table of the cells, resolved run by run. -/
theorem C64_xlsb_full {A D : Type} (env : Env) (lib : Lib A D) (search : Str → Option (Str → Bool))
    (reMatch : Str → Str → Py Bool) (isNull : Str → Bool) (o : ConcatOpts) (k t : Nat) (keep : Bool)
    (cols : List Int) (sheet : SheetArg) (args : ReadArgs D) (ha : args.Sensible) (f : XlsbFile)
    (temporal : List Bytes) (shared : List Str) (g : Grid) (h : f.Stores sheet temporal shared g) (H : HGrid)
    (hH : H = (g.held temporal shared isNull).shownXlsb isNull k t keep cols)
    (hdata : H.flatten ≠ [] → H.DataOrEnd env search reMatch args o) :
    readXlsb env lib search reMatch isNull o
        { sheet := sheet, skipRows := k, takeRows := t, keepEmpty := keep, skipCols := cols } args f =
      H.outcome env lib search reMatch args o := by
  obtain ⟨sheets, path, part, rs, hdrs, tail, e1, e2, e3, e4, e5, e6, e7⟩ := h.path
  have hst : f.temporal = .ok temporal := by
    obtain ⟨tb, t0, t1⟩ := h.styles
    simp only [XlsbFile.temporal, t0, openPart, t1]
  obtain ⟨hsh, hl⟩ := h.strings_eq isNull
  have hscan := scan_part e4 e5
  obtain ⟨p, hp, ht, hrec, hitems⟩ := h.parts_ok isNull hdrs e6 e7
  obtain ⟨evs, hit, hcells⟩ := xlsb_delivers_late (N := nullKeys isNull shared) k t keep cols p hp ht _ hitems
  have hm := forall2_without (fun i p h => h.1.1) cols (grid_lmeans env isNull temporal shared g hl h.fits)
  have hLV := forall2_xlsbRows (List.rel_append (forall2_take hm k)
    (forall2_keepFirst (p := fun i => !itemNull (nullKeys isNull shared) i) (q := fun c => !nullShared isNull c)
      (fun a c hac => by rw [hac.2]) (forall2_drop hm k))) k t keep
  have hLV' := hLV.imp fun l m hlm => hlm.imp fun a c hac => hac.1
  subst hH
  have hxs : xlsbSheet temporal isNull (fun seen => if seen then nullKeys isNull shared else []) ⟨k, t, keep, cols⟩ part =
      .ok evs := by
    unfold xlsbSheet
    rw [hscan, ← hrec]
    exact hit
  unfold readXlsb
  simp only [e1, e2, checkRows, e3, openPart, hst, hsh]
  simp only [show ¬ ((t : Int) < 0) by omega, show ¬ ((k : Int) < 0) by omega, if_false, Int.toNat_natCast, hxs]
  rw [show evs.filterMap Ev.cell? = evCells evs from by unfold evCells; rfl, hcells]
  exact readCells_outcome hLV' o lib search reMatch args ha hdata

/-- C69.  An archive with an XLSX workbook, as in `C63_xlsx_full`: null are the error texts and the texts the caller
names, resolution is as the caller asks. -/
theorem C69_xlsx_full {A D : Type} (env : Env) (lib : Lib A D) (search : Str → Option (Str → Bool))
    (reMatch : Str → Str → Py Bool) (toInt : Str → Option Int) (a : FileArgs D) (k t : Nat)
    (hk : a.iter.skipRows = k) (ht : a.iter.takeRows = t) (ha : a.table.Sensible) (p : Package)
    (hp : workbookXml ∈ p.names) (isNull : Str → Bool) (hnull : ∀ s, isNull s = (decide (s ∈ errorTexts) || a.nulls.asks s))
    (o : ConcatOpts) (ho : o = concatOpts a.conflict a.formats a.precision)
    (formats : List StyleClass) (shared : List (Option Str)) (g : TGrid)
    (h : p.xlsx.Stores env toInt a.iter.sheet isNull formats shared g) (H : HGrid)
    (hH : H = (g.held env isNull formats shared).shownXlsx k t a.iter.keepEmpty a.iter.skipCols)
    (hdata : H.flatten ≠ [] → H.DataOrEnd env search reMatch a.table o) :
    readFile env lib search reMatch toInt a p =
      H.outcome env lib search reMatch a.table o := by
  have hf : fileKind p.names = .ok .xlsx := by simp [fileKind, hp]
  unfold readFile
  rw [hf]
  simp only
  rw [skip_xlsx, ← ho, show (fun s => decide (s ∈ errorTexts) || a.nulls.asks s) = isNull from (funext hnull).symm]
  have e : a.iter = { sheet := a.iter.sheet, skipRows := k, takeRows := t, keepEmpty := a.iter.keepEmpty, skipCols := a.iter.skipCols } := by
    rw [← hk, ← ht]
  rw [e]
  exact C63_xlsx_full env lib search reMatch toInt isNull o k t _ _ _ a.table ha p.xlsx formats shared g h H hH hdata

/-- C69.  The same for an archive with an XLSB workbook, as in `C64_xlsb_full`. -/
theorem C69_xlsb_full {A D : Type} (env : Env) (lib : Lib A D) (search : Str → Option (Str → Bool))
    (reMatch : Str → Str → Py Bool) (toInt : Str → Option Int) (a : FileArgs D) (k t : Nat)
    (hk : a.iter.skipRows = k) (ht : a.iter.takeRows = t) (ha : a.table.Sensible) (p : Package)
    (hp : workbookXml ∉ p.names) (hp' : workbookBin ∈ p.names)
    (o : ConcatOpts) (ho : o = concatOpts a.conflict a.formats a.precision)
    (temporal : List Bytes) (shared : List Str) (g : Grid)
    (h : p.xlsb.Stores a.iter.sheet temporal shared g) (H : HGrid)
    (hH : H = (g.held temporal shared a.nulls.asks).shownXlsb a.nulls.asks k t a.iter.keepEmpty a.iter.skipCols)
    (hdata : H.flatten ≠ [] → H.DataOrEnd env search reMatch a.table o) :
    readFile env lib search reMatch toInt a p =
      H.outcome env lib search reMatch a.table o := by
  have hf : fileKind p.names = .ok .xlsb := by simp [fileKind, hp, hp']
  unfold readFile
  rw [hf]
  simp only
  rw [skip_xlsb, ← ho]
  have e : a.iter = { sheet := a.iter.sheet, skipRows := k, takeRows := t, keepEmpty := a.iter.keepEmpty, skipCols := a.iter.skipCols } := by
    rw [← hk, ← ht]
  rw [e]
  exact C64_xlsb_full env lib search reMatch a.nulls.asks o k t _ _ _ a.table ha p.xlsb temporal shared g h H hH hdata

/-- C85.  From the entries of an XLSX archive to the table, as in `C69_xlsx_full`. -/
theorem C85_xlsx_full {A D : Type} (env : Env) (lib : Lib A D) (search : Str → Option (Str → Bool))
    (reMatch : Str → Str → Py Bool) (toInt : Str → Option Int) (pieces : Str → List Str) (a : FileArgs D) (k t : Nat)
    (hk : a.iter.skipRows = k) (ht : a.iter.takeRows = t) (ha : a.table.Sensible) (z : Archive) (f : XlsxFile)
    (hz : z.HasXlsx pieces f) (isNull : Str → Bool)
    (hnull : ∀ s, isNull s = (decide (s ∈ errorTexts) || a.nulls.asks s))
    (o : ConcatOpts) (ho : o = concatOpts a.conflict a.formats a.precision)
    (formats : List StyleClass) (shared : List (Option Str)) (g : TGrid)
    (h : f.Stores env toInt a.iter.sheet isNull formats shared g) (H : HGrid)
    (hH : H = (g.held env isNull formats shared).shownXlsx k t a.iter.keepEmpty a.iter.skipCols)
    (hdata : H.flatten ≠ [] → H.DataOrEnd env search reMatch a.table o) :
    readArchive env lib search reMatch toInt pieces a z =
      H.outcome env lib search reMatch a.table o := by
  obtain ⟨es, ⟨rb, r1, r2⟩, r3, r4⟩ := hz.rels
  obtain ⟨⟨wb, w1, w2⟩, w3⟩ := hz.workbook
  have hkind : fileKind (z.map (·.1)) = .ok .xlsx := by simp [fileKind, has_mem w1]
  unfold readArchive
  rw [hkind]
  simp only [Kind.relsName, has_part r1, openPart, isXml_parse r2, scanRels_eq es r3]
  refine C69_xlsx_full env lib search reMatch toInt a k t hk ht ha _ (has_mem w1) isNull hnull o ho formats shared g ?_ H hH
    hdata
  have one : ∀ (n : Str) (d : XmlDoc), z.HasXml pieces n d.events ∧ d.bad = false →
      (z.part n).map (parsePart pieces) = some d := by
    rintro n d ⟨⟨b, b1, b2⟩, b3⟩
    rw [has_part b1]
    simp only [Option.map_some, isXml_parse b2]
    rw [← b3]
  have hw : parsePart pieces ((z.part workbookXml).getD []) = f.workbook := by
    rw [has_part w1, Option.getD_some, isXml_parse w2, ← w3]
  refine ⟨?_, ?_, ?_, h.fits⟩
  · obtain ⟨sheets, path, s, p1, p2, p3, p4, p5, p6⟩ := h.path
    refine ⟨sheets, path, s, ?_, p2, one _ _ (hz.parts _ _ p3), p4, p5, p6⟩
    simp only [Archive.package, hw]
    rw [← r4]
    exact p1
  · obtain ⟨es, s1, s2⟩ := h.styles
    exact ⟨es, one _ _ (hz.styles _ s1), s2⟩
  · obtain ⟨pre, post, items, s1, s2⟩ := h.sst
    exact ⟨pre, post, items, one _ _ (hz.shared _ s1), s2⟩

/-- C85.  The same for an XLSB archive. -/
theorem C85_xlsb_full {A D : Type} (env : Env) (lib : Lib A D) (search : Str → Option (Str → Bool))
    (reMatch : Str → Str → Py Bool) (toInt : Str → Option Int) (pieces : Str → List Str) (a : FileArgs D) (k t : Nat)
    (hk : a.iter.skipRows = k) (ht : a.iter.takeRows = t) (ha : a.table.Sensible) (z : Archive) (f : XlsbFile)
    (hz : z.HasXlsb pieces f) (o : ConcatOpts) (ho : o = concatOpts a.conflict a.formats a.precision)
    (temporal : List Bytes) (shared : List Str) (g : Grid)
    (h : f.Stores a.iter.sheet temporal shared g) (H : HGrid)
    (hH : H = (g.held temporal shared a.nulls.asks).shownXlsb a.nulls.asks k t a.iter.keepEmpty a.iter.skipCols)
    (hdata : H.flatten ≠ [] → H.DataOrEnd env search reMatch a.table o) :
    readArchive env lib search reMatch toInt pieces a z =
      H.outcome env lib search reMatch a.table o := by
  obtain ⟨es, ⟨rb, r1, r2⟩, r3, r4⟩ := hz.rels
  have w1 := hz.workbook
  have hkind : fileKind (z.map (·.1)) = .ok .xlsb := by simp [fileKind, has_mem w1, hz.notXlsx]
  unfold readArchive
  rw [hkind]
  simp only [Kind.relsName, has_part r1, openPart, isXml_parse r2, scanRels_eq es r3]
  refine C69_xlsb_full env lib search reMatch toInt a k t hk ht ha _ hz.notXlsx (has_mem w1) o ho temporal shared g ?_ H hH
    hdata
  refine ⟨?_, ?_, ?_, h.fits⟩
  · obtain ⟨sheets, path, part, rs, hdrs, tail, p1, p2, p3, p4⟩ := h.path
    refine ⟨sheets, path, part, rs, hdrs, tail, ?_, p2, has_part (hz.parts _ _ p3), p4⟩
    simp only [Archive.package, has_part w1, Option.getD_some]
    rw [← r4]
    exact p1
  · obtain ⟨b, s1, s2⟩ := h.styles
    exact ⟨b, has_part (hz.styles _ s1), s2⟩
  · obtain ⟨b, items, s1, s2⟩ := h.sst
    exact ⟨b, items, has_part (hz.shared _ s1), s2⟩

/-- C85.  Of several entries with a name the last one is read: one that comes before another with its name makes no
difference. -/
theorem C85_last_entry {A D : Type} (env : Env) (lib : Lib A D) (search : Str → Option (Str → Bool))
    (reMatch : Str → Str → Py Bool) (toInt : Str → Option Int) (pieces : Str → List Str) (a : FileArgs D)
    (pre post : Archive) (name : Str) (b : Bytes) (h : ∃ b', (name, b') ∈ post) :
    readArchive env lib search reMatch toInt pieces a (pre ++ (name, b) :: post) =
      readArchive env lib search reMatch toInt pieces a (pre ++ post) := by
  obtain ⟨b', hb⟩ := h
  have hpart : ∀ n, Archive.part (pre ++ (name, b) :: post) n = Archive.part (pre ++ post) n := by
    intro n
    unfold Archive.part
    congr 1
    rw [List.filter_append, List.filter_append]
    by_cases hn : name = n
    · subst hn
      rw [List.filter_cons_of_pos (by simp)]
      have hne : post.filter (fun e => decide (e.1 = name)) ≠ [] := by
        intro h0
        exact absurd (List.filter_eq_nil_iff.mp h0 _ hb) (by simp)
      rw [List.getLast?_append_of_ne_nil _ (by simp), List.getLast?_append_of_ne_nil _ hne, List.getLast?_cons_of_ne_nil hne]
    · rw [List.filter_cons_of_neg (by simpa using hn)]
  have hmem : ∀ n, n ∈ (pre ++ (name, b) :: post).map (·.1) ↔ n ∈ (pre ++ post).map (·.1) := by
    intro n
    simp only [List.map_append, List.map_cons, List.mem_append, List.mem_cons]
    constructor
    · rintro (h | h | h)
      · exact .inl h
      · exact .inr (List.mem_map.mpr ⟨_, hb, h.symm⟩)
      · exact .inr h
    · rintro (h | h)
      · exact .inl h
      · exact .inr (.inr h)
  have hkind : fileKind ((pre ++ (name, b) :: post).map (·.1)) = fileKind ((pre ++ post).map (·.1)) := by
    have hc : ∀ n, ((pre ++ (name, b) :: post).map (·.1)).contains n = ((pre ++ post).map (·.1)).contains n := by
      intro n
      rw [Bool.eq_iff_iff, List.contains_iff_mem, List.contains_iff_mem]
      exact hmem n
    unfold fileKind
    rw [hc, hc]
  unfold readArchive
  rw [hkind]
  cases hk : fileKind ((pre ++ post).map (·.1)) with
  | error e => rfl
  | ok kind =>
    simp only [hpart]
    cases openPart (Archive.part (pre ++ post) kind.relsName) with
    | error e => rfl
    | ok rb =>
      simp only
      cases scanRels (parsePart pieces rb) with
      | error e => rfl
      | ok rels =>
        simp only
        unfold readFile
        have hfun : Archive.part (pre ++ (name, b) :: post) = Archive.part (pre ++ post) := funext hpart
        simp only [Archive.package, hkind, hfun]

example : exReadZip (exEntry "xl/worksheets/s.xml" "<worksheet/>" :: exZip) {} = exReadZip exZip {} ∧
    exReadZip (exZip ++ [exEntry "xl/worksheets/s.xml" "<worksheet/>"]) {} = .error .valueError ∧
    exReadZip exZip {} ≠ .error .valueError := by
  decide +kernel

/-- As many header rows as there are rows. -/
example : (readArchive demoEnv exLib (fun _ => none) (fun _ _ => .ok false) exInt (fun s => [s])
    { table := { header := .rows 2 } } exZip).map (·.arrays) = .error .valueError := by
  decide +kernel

/-! ### The workbooks of C62 and C63 -/

theorem exXlsxFile_stores : exXlsxFile.Stores demoEnv exInt (.index 0) (fun s => s == ['x'])
    [.other, .temporal, .numeric] [none, some ['y', 'z']] exTGrid := by
  refine ⟨exXlsxFile_holds.path, exXlsxFile_holds.styles,
    ⟨[.start ['t'] []], [.close ['t']], [exSi [['x']], exSi [['y', 'z', ' ']]], rfl, ?_, ?_, ?_, by decide +kernel⟩, ?_⟩
  · simp [Xml.noSi, tagSi]
  · simp [Xml.noSi, tagSi]
  · intro x hx e he
    simp only [List.mem_cons, List.not_mem_nil, or_false] at hx
    rcases hx with rfl | rfl <;> simp [exSi] at he <;> rcases he with h | h | h <;> subst_vars <;> simp [Xml.noSi, tagSi]
  · intro row hrow c hc
    have hf := exXlsxFile_holds.fits row hrow c hc
    refine ⟨hf.digits, hf.style, hf.more, hf.before, fun i hi => ⟨(hf.index i hi).1, (hf.index i hi).2.1⟩, ?_⟩
    simp only [exTGrid, List.mem_cons, List.not_mem_nil, or_false] at hrow
    rcases hrow with rfl | rfl | rfl | rfl <;> simp only [List.mem_cons, List.not_mem_nil, or_false] at hc
    · rcases hc with rfl | rfl <;> decide +kernel
    · subst hc
      decide +kernel
    · rcases hc with rfl | rfl | rfl <;> decide +kernel

example : exFile.Stores (.index 0) [[1, 0, 0]] [['x'], ['y', 'z']] exGrid := exFile_holds.stores

/-- The shared string `x` is null: the XLSX file has no text for it, the cell is there without a value. -/
example : (exTGrid.held demoEnv (fun s => s == ['x']) [.other, .temporal, .numeric] [none, some ['y', 'z']]).shownXlsx
      0 0 true [1] =
      [[(0, 0x11, some (.str ['y', 'z'])), (2, 0x18, some (.str ['q']))], [], [(0, 0x18, some (.str ['-']))],
        [(0, 0x20, some (.f8 (.fin 1))), (2, 0x11, none)]] ∧
    (readXlsx demoEnv exLib (fun _ => none) (fun _ _ => .ok false) exInt (fun s => s == ['x']) exConcat
      { keepEmpty := true, skipCols := [1] } {} exXlsxFile).map (·.arrays) =
      .ok [.arr ⟨.utf8, [some (.str ['y', 'z']), none, some (.str ['-']), some (.str ['1'])]⟩,
        .arr ⟨.utf8, [some (.str ['q']), none, none, none]⟩] := by
  decide +kernel

/-- The shared strings `x` and `yz` are null: in the XLSB file the first cell is delivered all the same, the other one
is left out. -/
example : (exGrid.held [[1, 0, 0]] [['x'], ['y', 'z']] (fun s => s.length < 3 && s ≠ ['q'])).shownXlsb
      (fun s => s.length < 3 && s ≠ ['q']) 0 0 true [1] =
      [[(0, 0x11, some (.str ['y', 'z'])), (2, 0x18, some (.str ['q']))], [], [], [(0, 0x22, some (.f8 (.fin 1)))]] ∧
    (readXlsb demoEnv exLib (fun _ => none) (fun _ _ => .ok false) (fun s => s.length < 3 && s ≠ ['q']) exConcat
      { keepEmpty := true, skipCols := [1] } {} exFile).map (·.arrays) =
      .ok [.arr ⟨.utf8, [some (.str ['y', 'z']), none, none, some (.str ['1'])]⟩,
        .arr ⟨.utf8, [some (.str ['q']), none, none, none]⟩] := by
  decide +kernel

/-- Finding, C69 (C48 through `read`): `null_values` meant for texts hit the numbers of shared strings in XLSX files.  With `null_values`
`["1"]` the cell with the text `yz`, shared string number 1, is left out; in the XLSB file it is there. -/
theorem C69_null_number_finding :
    exArchive [workbookXml] { nulls := .values [['1']], iter := { skipCols := [1, 2] } } =
      .ok [.arr ⟨.utf8, [some (.str ['-'])]⟩] ∧
    exArchive [workbookBin] { nulls := .values [['1']], iter := { skipCols := [1, 2] } } =
      .ok [.arr ⟨.utf8, [some (.str ['y', 'z']), some (.str ['-']), some (.str ['1'])]⟩] := by
  decide +kernel

end Rxls
