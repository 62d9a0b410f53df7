import Verif.Spec.Meaning
import Verif.Props.ArrowText
import Verif.Props.DateText
import Verif.Props.XlsxWrite
import Verif.Props.XlsbWrite
import Verif.Props.TwoFormats

/-! # Property C89: mixed columns become what their cells mean -/

namespace Rxls

/-- Arrow's conversions of texts: to numbers, and to moments in the formats of the library. -/
structure Env.Arrow (env : Env) : Prop where
  parseF8 : env.parseF8 = arrowFloatText
  strptime : env.strptime = arrowStrptime
  formats : env.formats = defaultFormats timeFormatsArrow

theorem numberWord_not (d : Decimal) (h : d.Ok) (hs : d.sign ≠ some false) : arrowFloatText d.text = some (rnd d.value) := by
  unfold arrowFloatText
  rw [if_neg, strtod_text d h]
  intro hp
  unfold Decimal.text at hp
  rcases hsg : d.sign with _ | _ | _
  · rw [hsg] at hp
    cases hwh : d.whole with
    | cons y ys =>
      rw [hwh] at hp
      simp [signText] at hp
      exact (isDigit_numeral y).2.2.2.2.1 hp
    | nil =>
      cases hpt : d.point with
      | true => rw [hwh, hpt] at hp; simp [signText] at hp
      | false =>
        rcases h.digit with h' | h'
        · exact h' hwh
        · exact h' (h.point hpt)
  · exact hs hsg
  · rw [hsg] at hp; simp [signText] at hp

theorem textMoment_means {env : Env} (he : env.Arrow) {o : ConcatOpts} (hf : o.formats = []) {s : Str} {v : Int}
    (h : WritesMoment s v) (hp : 0 < v) (hshort : s[8]? = some ' ' ∨ s[8]? = some 'T' → v % 86400000 = 0 ∨ v < 86400000) :
    textMoment env o s = some v := by
  have h2 : mfElem arrowStrptime (defaultFormats timeFormatsArrow) (some s) = v := by
    rw [elem_exact h]
    unfold readsAs
    split
    · rfl
    · rename_i hn
      by_cases h8 : s[8]? = some ' ' ∨ s[8]? = some 'T'
      · have := hshort h8
        have : ¬ v % 86400000 = 0 := fun e => hn ⟨hp, fun _ => e⟩
        omega
      · exact absurd ⟨hp, fun e => absurd e h8⟩ hn
  have h3 : mfElem env.strptime (if o.formats = [] then env.formats else o.formats) (some s) = (textMoment env o s).getD 0 := mfElem_text env o s
  rw [hf, if_pos rfl, he.strptime, he.formats, h2] at h3
  cases ht : textMoment env o s with
  | none => rw [ht] at h3; simp at h3; omega
  | some w => rw [ht] at h3; simp at h3; rw [h3]

theorem rel_mem {R : Val → Val → Prop} {l m : List (Option Val)} (h : List.Forall₂ (Option.Rel R) l m) {v : Val}
    (hv : some v ∈ l) : ∃ w, R v w := by
  induction h with
  | nil => cases hv
  | cons h1 _ ih =>
    rcases List.mem_cons.mp hv with e | h'
    · subst e
      cases h1 with
      | some h => exact ⟨_, h⟩
    · exact ih h'

theorem rel_map {R : Val → Val → Prop} {l m : List (Option Val)} (h : List.Forall₂ (Option.Rel R) l m) (f : Val → Val)
    (hf : ∀ v w, R v w → f v = w) : l.map (Option.map f) = m := by
  induction h with
  | nil => rfl
  | cons h1 _ ih =>
    rw [List.map_cons, ih]
    cases h1 with
    | some h => rw [Option.map_some, hf _ _ h]
    | none => rfl

theorem any_isTs {l : List (Option Val)} : l.any isTs = true ↔ ∃ n, some (.ts n) ∈ l := by
  rw [List.any_eq_true]
  constructor
  · rintro ⟨v, hv, h⟩
    rcases v with _ | _ | _ | _ | _ <;> simp [isTs] at h
    exact ⟨_, hv⟩
  · rintro ⟨n, h⟩
    exact ⟨_, h, rfl⟩

theorem any_isNum {l : List (Option Val)} : l.any isNum = true ↔ ∃ x, some (.f8 x) ∈ l := by
  rw [List.any_eq_true]
  constructor
  · rintro ⟨v, hv, h⟩
    rcases v with _ | _ | _ | _ | _ <;> simp [isNum] at h
    exact ⟨_, hv⟩
  · rintro ⟨n, h⟩
    exact ⟨_, h, rfl⟩

theorem MeansNumber.not_ts {n : Int} {w : Val} : ¬ MeansNumber (.ts n) w := nofun

/-- C89, one column.  With `conflict_resolve="all"` the array of a column is that of its meaning.  Missing: what `ColumnMeans`
excludes, plus signs (`C89_plus`), moments up to 1970 and times after a year of two digits (C80). -/
theorem C89_column_partial (env : Env) (he : env.Arrow) (o : ConcatOpts) (hd : o.confDt = true) (hn : o.confNum = true)
    (hf : o.formats = []) (l m : List (Option Val)) (h : ColumnMeans l m) :
    fetched env o l = materialise env o.prec m := by
  unfold fetched
  congr 1
  unfold resolved
  cases h with
  | numbers hx hm =>
    have hts : l.any isTs = false := by
      rw [Bool.eq_false_iff]
      intro ht
      obtain ⟨n, hn⟩ := any_isTs.mp ht
      obtain ⟨w, hw⟩ := rel_mem hm hn
      cases hw
    have hnum : numericTexts env l = true := numericTexts_mem.mpr fun s hs => by
      obtain ⟨w, hw⟩ := rel_mem hm hs
      cases hw with
      | text d h1 h2 => rw [he.parseF8, numberWord_not d h1 h2]; rfl
    rw [hts, if_neg (by simp), hn, any_isNum.mpr hx, hnum]
    simp only [Bool.and_self, if_true]
    refine rel_map hm _ fun v w h => ?_
    cases h with
    | number x => rfl
    | text d h1 h2 => simp only [asNumber]; rw [he.parseF8, numberWord_not d h1 h2]; rfl
  | moments hx hm =>
    have hmom : momentTexts env o l = true := momentTexts_mem.mpr fun s hs => by
      obtain ⟨w, hw⟩ := rel_mem hm hs
      cases hw with
      | text _ v h1 h2 h3 => rw [textMoment_means he hf h1 h2 h3]; rfl
    rw [any_isTs.mpr hx, if_pos rfl, if_pos hd]
    refine rel_map hm _ fun v w h => ?_
    cases h with
    | moment n => rfl
    | serial x => rfl
    | text s v h1 h2 h3 =>
      simp only [asMoment, hmom, if_true]
      rw [textMoment_means he hf h1 h2 h3]; rfl
  | texts hs e =>
    rw [e]
    have hts : l.any isTs = false := by
      rw [Bool.eq_false_iff]
      intro ht
      obtain ⟨n, hn⟩ := any_isTs.mp ht
      obtain ⟨s, e⟩ := hs _ hn
      cases e
    have hnum : l.any isNum = false := by
      rw [Bool.eq_false_iff]
      intro ht
      obtain ⟨n, hn⟩ := any_isNum.mp ht
      obtain ⟨s, e⟩ := hs _ hn
      cases e
    rw [hts, hnum]
    simp

theorem meant_numbers {l m : List (Option Val)} (h : List.Forall₂ (Option.Rel MeansNumber) l m) :
    m.any isTs = false ∧ m.any isText = false ∧ (l.any isNum = true → m.any isNum = true) := by
  induction h with
  | nil => simp
  | cons h1 _ ih =>
    obtain ⟨i1, i2, i3⟩ := ih
    cases h1 with
    | none => exact ⟨i1, i2, i3⟩
    | some h => cases h <;> exact ⟨by simp [List.any_cons, i1, isTs], by simp [List.any_cons, i2, isText], by simp [isNum]⟩

theorem meant_moments {l m : List (Option Val)} (h : List.Forall₂ (Option.Rel MeansMoment) l m) :
    m.any isNum = false ∧ m.any isText = false ∧ (l.any isTs = true → m.any isTs = true) := by
  induction h with
  | nil => simp
  | cons h1 _ ih =>
    obtain ⟨i1, i2, i3⟩ := ih
    cases h1 with
    | none => exact ⟨i1, i2, i3⟩
    | some h => cases h <;> exact ⟨by simp [List.any_cons, i1, isNum], by simp [List.any_cons, i2, isText], by simp [isTs]⟩

/-- C89.  So a column with numbers has a type of numbers, one with moments is the column of the moments, and one of texts is
the column of the texts: nothing is turned into text. -/
theorem C89_type (env : Env) (prec : Nat) (l m : List (Option Val)) :
    ((∃ x, some (.f8 x) ∈ l) → List.Forall₂ (Option.Rel MeansNumber) l m → ∀ t, t = (materialise env prec m).dtype →
      (t = .f8 ∧ (materialise env prec m).vals = m) ∨ (t = .i8 ∧ (∀ x, some (.f8 x) ∈ m → f8IsI8 [x] prec = true) ∧
        (materialise env prec m).vals = m.map (Option.map fun v => match v with | .f8 x => .i8 x.toI64 | v => v))) ∧
    ((∃ n, some (.ts n) ∈ l) → List.Forall₂ (Option.Rel MeansMoment) l m → materialise env prec m = ⟨.ts, m⟩) ∧
    ((∀ v, some v ∈ m → ∃ s, v = .str s) → materialise env prec m = ⟨.utf8, m⟩) := by
  have id' : ∀ (t : DType) , (t = .f8 ∨ t = .ts) → m.map (Option.map (rendered env t)) = m := by
    intro t ht
    conv_rhs => rw [← List.map_id m]
    apply List.map_congr_left
    intro v _
    rcases v with _ | v
    · rfl
    · rcases ht with rfl | rfl <;> cases v <;> rfl
  refine ⟨fun hx hm t ht => ?_, fun hx hm => ?_, fun hs => ?_⟩
  · obtain ⟨h1, h2, h3⟩ := meant_numbers hm
    have hc : columnType prec m = if m.all (wholeNum prec) then .i8 else .f8 := by
      unfold columnType
      rw [h1, h2, h3 (any_isNum.mpr hx)]
      simp
    unfold materialise at ht ⊢
    rw [hc] at ht ⊢
    by_cases hw : m.all (wholeNum prec) = true
    · rw [if_pos hw] at ht ⊢
      refine .inr ⟨ht, fun x hx => List.all_eq_true.mp hw _ hx, ?_⟩
      apply List.map_congr_left
      intro v _
      rcases v with _ | v
      · rfl
      · cases v <;> rfl
    · rw [if_neg hw] at ht ⊢
      exact .inl ⟨ht, id' _ (.inl rfl)⟩
  · obtain ⟨h1, h2, h3⟩ := meant_moments hm
    have hc : columnType prec m = .ts := by
      unfold columnType
      rw [h1, h2, h3 (any_isTs.mpr hx)]
      simp
    unfold materialise
    rw [hc, id' _ (.inr rfl)]
  · have h1 : m.any isTs = false := by
      rw [Bool.eq_false_iff]; intro h
      obtain ⟨n, hn⟩ := any_isTs.mp h
      obtain ⟨s, e⟩ := hs _ hn
      cases e
    have h2 : m.any isNum = false := by
      rw [Bool.eq_false_iff]; intro h
      obtain ⟨n, hn⟩ := any_isNum.mp h
      obtain ⟨s, e⟩ := hs _ hn
      cases e
    have hc : columnType prec m = .utf8 := by
      unfold columnType
      rw [h1, h2]
      cases m.any isText <;> simp
    unfold materialise
    rw [hc]
    congr 1
    conv_rhs => rw [← List.map_id m]
    apply List.map_congr_left
    intro v hv
    rcases v with _ | v
    · rfl
    · obtain ⟨s, rfl⟩ := hs v hv
      rfl

theorem ColumnMeans.resolvable {env : Env} (he : env.Arrow) {o : ConcatOpts} (hf : o.formats = []) {l m : List (Option Val)}
    (h : ColumnMeans l m) {inl : Bool} (hi : (∃ n, some (.ts n) ∈ l) → (∃ s, some (.str s) ∈ l) → inl = true) :
    Resolvable env o inl l := by
  cases h with
  | numbers hx hm =>
    refine ⟨fun _ _ => .inl fun s hs => ?_, fun _ ht => ?_⟩
    · obtain ⟨w, hw⟩ := rel_mem hm hs
      cases hw with
      | text d h1 h2 => rw [he.parseF8, numberWord_not d h1 h2]; rfl
    · obtain ⟨n, hn⟩ := any_isTs.mp ht
      obtain ⟨w, hw⟩ := rel_mem hm hn
      cases hw
  | moments hx hm =>
    refine ⟨fun _ _ => .inr fun s hs => ?_, fun _ ht => ?_⟩
    · obtain ⟨w, hw⟩ := rel_mem hm hs
      cases hw with
      | text _ v h1 h2 h3 => rw [he.parseF8]; exact C89_date_is_no_number s v h1
    · by_cases hs : ∃ s, some (.str s) ∈ l
      · refine .inr ⟨hi hx hs, .inl fun s hs => ?_⟩
        obtain ⟨w, hw⟩ := rel_mem hm hs
        cases hw with
        | text _ v h1 h2 h3 => rw [textMoment_means he hf h1 h2 h3]; rfl
      · left
        rw [List.any_eq_false]
        intro v hv ht
        rcases v with _ | _ | _ | _ | _ <;> simp [isText] at ht
        exact hs ⟨_, hv⟩
  | texts hs e =>
    have no : ∀ v, some v ∈ l → ¬ ((isNum (some v) = true) ∨ isTs (some v) = true) := by
      intro v hv
      obtain ⟨s, rfl⟩ := hs v hv
      simp [isNum, isTs]
    refine ⟨fun _ hk => ?_, fun _ ht => ?_⟩
    · rcases hk with hk | hk
      · obtain ⟨n, hn⟩ := any_isNum.mp hk; exact absurd (.inl rfl) (no _ hn)
      · obtain ⟨n, hn⟩ := any_isTs.mp hk; exact absurd (.inr rfl) (no _ hn)
    · obtain ⟨n, hn⟩ := any_isTs.mp ht; exact absurd (.inr rfl) (no _ hn)

/-- The table with the default arguments, if some column has a value in the first row and one in the last. -/
theorem table_default {A D : Type} (env : Env) (lib : Lib A D) (hlib : lib.Lawful) (search : Str → Option (Str → Bool))
    (reMatch : Str → Str → Py Bool) (o : ConcatOpts) (V : VGrid) (hV : V.maxSpan = V.length) :
    V.table env lib search reMatch {} o =
      .ok ⟨(List.range V.columns.length).map fun i => "Unnamed. ".toList ++ pyStr i,
        V.columns.map fun k => lib.ofFetched (.arr (fetched env o (V.column k)))⟩ := by
  have hat : ∀ k, window (V.column k) 0 V.length = V.column k := by
    intro k
    unfold window cellAt VGrid.column
    apply List.map_congr_left
    intro i hi
    have hi' := List.mem_range.mp hi
    simp [hi']
  have htab := fun m => tableOf_ok (D := D) hlib env o V.column V.columns
    ((List.range V.columns.length).map fun i => unnamedDot ++ pyStr i) (by simp) .none 0 V.length m rfl
  unfold VGrid.table sheetTable
  rw [hV]
  simp only [lookupRow, namesFor, if_true, filterKeys, HeaderArg.height, maskFor, List.isEmpty_nil, Nat.cast_zero,
    add_zero, sub_zero, Int.toNat_zero, Int.toNat_natCast]
  rw [(htab none).1]
  simp only [pickRows, hat]
  rfl

theorem column_absent {V : VGrid} {k : Int} (h : k ∉ V.columns) : ∀ v, some v ∉ V.column k := by
  intro v hv
  apply h
  unfold VGrid.column VGrid.at at hv
  obtain ⟨i, -, hi⟩ := List.mem_map.mp hv
  obtain ⟨p, hp, -⟩ := Option.map_eq_some_iff.mp hi
  have h1 := List.mem_of_find?_eq_some hp
  have h2 := List.find?_some hp
  simp only [decide_eq_true_eq] at h2
  unfold VGrid.columns VGrid.cols
  rw [List.mem_insertionSort, List.mem_dedup, List.mem_map]
  refine ⟨p, ?_, h2⟩
  rw [List.getD_eq_getElem?_getD] at h1
  cases hr : V[i]? with
  | none => rw [hr] at h1; cases h1
  | some row => rw [hr] at h1; exact List.mem_flatten.mpr ⟨row, List.mem_of_getElem? hr, h1⟩

/-- The columns of the grid mean `W`; those with moments and texts have no shared strings. -/
structure VGrid.Means (V : VGrid) (inline : Int → Bool) (W : Int → List (Option Val)) : Prop where
  span : V.maxSpan = V.length
  column : ∀ k ∈ V.columns, ColumnMeans (V.column k) (W k)
  inline : ∀ k ∈ V.columns, (∃ n, some (.ts n) ∈ V.column k) → (∃ s, some (.str s) ∈ V.column k) → inline k = true

theorem VGrid.Means.resolvable {env : Env} (he : env.Arrow) {o : ConcatOpts} (hf : o.formats = []) {V : VGrid} {inl : Int → Bool}
    {W : Int → List (Option Val)} (h : V.Means inl W) : V.Resolvable env o inl := by
  intro k
  by_cases hk : k ∈ V.columns
  · exact (h.column k hk).resolvable he hf (h.inline k hk)
  · have ha := column_absent hk
    exact ColumnMeans.resolvable he hf (.texts (fun v hv => absurd hv (ha v)) rfl) fun ⟨n, hn⟩ => absurd hn (ha _)

theorem VGrid.Means.hasData {D : Type} (env : Env) (search : Str → Option (Str → Bool)) (o : ConcatOpts) {V : VGrid} {inl : Int → Bool}
    {W : Int → List (Option Val)} (h : V.Means inl W) (hne : V.flatten ≠ []) :
    V.HasData env search ({} : ReadArgs D) o := by
  intro row hr
  injection hr with hr
  injection hr with hr
  subst hr
  rw [h.span]
  have : V ≠ [] := by rintro rfl; exact hne rfl
  have := List.length_pos_iff.mpr this
  simpa [HeaderArg.height] using this

theorem VGrid.Means.table {A D : Type} {env : Env} (he : env.Arrow) (lib : Lib A D) (hlib : lib.Lawful)
    (search : Str → Option (Str → Bool)) (reMatch : Str → Str → Py Bool) {o : ConcatOpts} (hd : o.confDt = true) (hn : o.confNum = true)
    (hf : o.formats = []) {V : VGrid} {inl : Int → Bool} {W : Int → List (Option Val)} (h : V.Means inl W) :
    V.table env lib search reMatch {} o =
      .ok ⟨(List.range V.columns.length).map fun i => "Unnamed. ".toList ++ pyStr i,
        V.columns.map fun k => lib.ofFetched (.arr (materialise env o.prec (W k)))⟩ := by
  rw [table_default env lib hlib search reMatch o V h.span]
  congr 2
  refine List.map_congr_left fun k hk => ?_
  rw [C89_column_partial env he o hd hn hf _ _ (h.column k hk)]

theorem sensible_default {D : Type} : ({} : ReadArgs D).Sensible := ⟨(by decide : (0 : Int) < 30), le_refl (0 : Int)⟩

theorem conf_all : [strTemporal, strAll].contains "all".toList = true ∧ [strNumeric, strAll].contains "all".toList = true := by
  decide +kernel

/-- C89, XLSX.  An XLSX workbook read with `conflict_resolve="all"`: every column of the table is what the cells of that
column mean.  Missing: as in `C89_column_partial`; shared strings among moments (C68); columns that end before the last row
(C58). -/
theorem C89_xlsx_partial {A D : Type} (env : Env) (he : env.Arrow) (lib : Lib A D) (hlib : lib.Lawful) (search : Str → Option (Str → Bool))
    (reMatch : Str → Str → Py Bool) (toInt : Str → Option Int) (pieces : Str → List Str) (hpc : Buffered pieces)
    (iter : IterArgs) (k t : Nat) (hk : iter.skipRows = k) (ht : iter.takeRows = t) (prec : Nat) (nulls : NullArg)
    (isNull : Str → Bool) (hnull : ∀ s, isNull s = (decide (s ∈ errorTexts) || nulls.asks s))
    (b : WBook) (hb : b.Ok env toInt isNull) (name : Str) (rows : List (List WCell)) (hs : b.Selects iter.sheet name rows)
    (hc : ∀ s ∈ b.sheets, ∀ row ∈ s.2, ∀ c ∈ row, c.Ok env isNull b)
    (z : Archive) (hz : ∀ e ∈ b.entries, e ∈ z) (hnd : (z.map (·.1)).Nodup) (V : VGrid)
    (hV : V = ((gridOf rows).values env isNull b.classes b.texts).shownXlsx k t iter.keepEmpty iter.skipCols)
    (hne : V.flatten ≠ []) (W : Int → List (Option Val)) (hW : V.Means (gridOf rows).inline W) :
    readArchive env lib search reMatch toInt pieces
        { iter := iter, precision := prec, conflict := "all".toList, nulls := nulls } z =
      .ok ⟨(List.range V.columns.length).map fun i => "Unnamed. ".toList ++ pyStr i,
        V.columns.map fun k => lib.ofFetched (.arr (materialise env prec (W k)))⟩ := by
  rw [C85_written env lib search reMatch toInt pieces hpc
    { iter := iter, precision := prec, conflict := "all".toList, nulls := nulls } k t hk ht
    sensible_default isNull hnull _ rfl b hb name rows hs hc z hz hnd V hV
    (hW.resolvable he rfl) (fun _ => hW.hasData env search _ hne), if_neg hne]
  exact hW.table he lib hlib search reMatch conf_all.1 conf_all.2 rfl

/-- C89, XLSB.  Missing: as for XLSX. -/
theorem C89_xlsb_partial {A D : Type} (env : Env) (he : env.Arrow) (lib : Lib A D) (hlib : lib.Lawful) (search : Str → Option (Str → Bool))
    (reMatch : Str → Str → Py Bool) (toInt : Str → Option Int) (pieces : Str → List Str) (hpc : Buffered pieces)
    (iter : IterArgs) (k t : Nat) (hk : iter.skipRows = k) (ht : iter.takeRows = t) (prec : Nat) (nulls : NullArg)
    (b : BBook) (hb : b.Ok nulls.asks) (name : Str) (rows : List (List BCell)) (hs : b.Selects iter.sheet name rows)
    (hc : ∀ s ∈ b.sheets, ∀ row ∈ s.2, ∀ c ∈ row, c.Ok b) (hv : ∃ row ∈ rows, ∃ c ∈ row, c.blank nulls.asks = false)
    (z : Archive) (hz : ∀ e ∈ b.entries, e ∈ z) (hnd : (z.map (·.1)).Nodup) (hx : workbookXml ∉ z.map (·.1)) (V : VGrid)
    (hV : V = (b.values nulls.asks rows).shownXlsb k t iter.keepEmpty iter.skipCols)
    (hne : V.flatten ≠ []) (W : Int → List (Option Val)) (hW : V.Means (inlineOf rows) W) :
    readArchive env lib search reMatch toInt pieces
        { iter := iter, precision := prec, conflict := "all".toList, nulls := nulls } z =
      .ok ⟨(List.range V.columns.length).map fun i => "Unnamed. ".toList ++ pyStr i,
        V.columns.map fun k => lib.ofFetched (.arr (materialise env prec (W k)))⟩ := by
  rw [C85_written_xlsb env lib search reMatch toInt pieces hpc
    { iter := iter, precision := prec, conflict := "all".toList, nulls := nulls } k t hk ht
    sensible_default _ rfl b hb name rows hs hc hv z hz hnd hx V hV
    (hW.resolvable he rfl) (fun _ => hW.hasData env search _ hne), if_neg hne]
  exact hW.table he lib hlib search reMatch conf_all.1 conf_all.2 rfl

/-- Arrow's and Python's conversions. -/
def arrowEnv : Env := { textEnv with parseF8 := arrowFloatText, strptime := arrowStrptime, formats := defaultFormats timeFormatsArrow }

example : arrowEnv.Arrow := ⟨rfl, rfl, rfl⟩

/-- Cell formats: General, a date, an integer.  The numbers of General cells are texts for the code. -/
def exMixed : WBook where
  sheets := [(['S'], [[⟨0, none, .plain ['-', '2', '.', '5', 'e', '1']⟩, ⟨1, some 1, .plain ['4', '5', '0', '0', '0']⟩, ⟨2, none, .plain ['q']⟩],
    [⟨0, some 2, .plain ['7']⟩, ⟨1, none, .plain "16.03.2023 10:30".toList⟩],
    [⟨1, some 2, .plain ['4', '5', '0', '0', '2']⟩, ⟨2, none, .plain ['5']⟩]])]
  shared := []
  formats := [0, 14, 1]
  codes := []

def exReadMixed (conflict : Str) : Py (List Fetched) :=
  (readArchive arrowEnv exLib (fun _ => none) (fun _ _ => .ok false) exInt (fun s => [s]) { conflict := conflict } exMixed.entries).map (·.arrays)

/-- With `conflict_resolve="all"`. -/
example : exReadMixed "all".toList = .ok [.arr ⟨.i8, [some (.i8 (-25)), some (.i8 7), none]⟩,
      .arr ⟨.ts, [some (.ts 1678838400000), some (.ts 1678962600000), some (.ts 1679011200000)]⟩,
      .arr ⟨.utf8, [some (.str ['q']), none, some (.str ['5'])]⟩] := by decide +kernel

/-- Columns with a meaning. -/
example : ColumnMeans [some (.f8 (.fin 7)), some (.str "-2.5e1".toList), none] [some (.f8 (.fin 7)), some (.f8 (.fin (-25))), none] ∧
    ColumnMeans [some (.ts 5), some (.f8 (.fin 45000)), some (.str "10:20".toList)]
      [some (.ts 5), some (.ts 1678838400000), some (.ts 37200000)] := by
  constructor
  · refine .numbers ⟨_, List.mem_cons_self⟩ (.cons (.some (.number _)) (.cons (.some ?_) (.cons .none .nil)))
    have := MeansNumber.text ⟨some true, [2], true, [5], some (false, none, [1])⟩ ⟨.inl (by decide), by decide, by decide⟩ (by decide)
    have e : rnd (Decimal.value ⟨some true, [2], true, [5], some (false, none, [1])⟩) = .fin (-25) := by decide +kernel
    rw [e] at this
    exact this
  · refine .moments ⟨_, List.mem_cons_self⟩ (.cons (.some (.moment _)) (.cons (.some ?_) (.cons (.some ?_) .nil)))
    · have := MeansMoment.serial (.fin 45000)
      have e : f8ToMsWin (.fin 45000) = 1678838400000 := by decide +kernel
      rw [e] at this
      exact this
    · refine .text _ _ (WritesMoment.clock false ⟨10, 20, 0⟩ (by simp [Clock.Real]) fun _ => rfl) (by decide) ?_
      simp [Clock.write, digits2]

/-- C89, finding.  A plus sign: a text with one is a number for Python (cells of a number format, C87) and none for Arrow
(texts among numbers). -/
theorem C89_plus (d : Decimal) (hd : d.Ok) (h : d.sign = some false) :
    pyFloatText d.text = some (rnd d.value) ∧ arrowFloatText d.text = none := by
  refine ⟨C87_number_text d hd, ?_⟩
  unfold arrowFloatText
  rw [if_pos]
  simp [Decimal.text, h, signText]

end Rxls
