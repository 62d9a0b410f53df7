import Verif.Props.PolarsText
import Verif.Props.Meaning

/-! # Property C101 for columns and files: moments beside texts that write moments, with polars -/

namespace Rxls

/-- Arrow's conversion of texts to numbers, and polars' to moments in the formats of the library. -/
structure Env.Polars (env : Env) : Prop where
  parseF8 : env.parseF8 = arrowFloatText
  strptime : env.strptime = polarsStrptime
  formats : env.formats = defaultFormats timeFormatsPolars

/-- A cell of a column of moments: a moment, a serial number, or a text that writes a moment after 1970-01-01 00:00. -/
inductive MeansPrecise : Val → Val → Prop where
  | moment (n : Int) : MeansPrecise (.ts n) (.ts n)
  | serial (x : F64) : MeansPrecise (.f8 x) (.ts (f8ToMsWin x))
  | text (s : Str) (v : Int) : WritesPrecise s v → 0 < v → MeansPrecise (.str s) (.ts v)

/-- A column with a moment, in which every cell means one. -/
def ColumnPrecise (l m : List (Option Val)) : Prop :=
  (∃ n, some (.ts n) ∈ l) ∧ List.Forall₂ (Option.Rel MeansPrecise) l m

theorem textMoment_precise {env : Env} (he : env.Polars) {o : ConcatOpts} (hf : o.formats = []) {s : Str} {v : Int}
    (h : WritesPrecise s v) (hp : 0 < v) : textMoment env o s = some v := by
  have h2 : mfElem polarsStrptime (defaultFormats timeFormatsPolars) (some s) = v := by
    rw [precise_elem h, timeOfDay_pos (by omega)]
  have h3 : mfElem env.strptime (if o.formats = [] then env.formats else o.formats) (some s) = (textMoment env o s).getD 0 :=
    mfElem_text env o s
  rw [hf, if_pos rfl, he.strptime, he.formats, h2] at h3
  cases ht : textMoment env o s with
  | none => rw [ht] at h3; simp at h3; omega
  | some w => rw [ht] at h3; simp at h3; rw [h3]

/-- A text in these styles is no number. -/
theorem precise_no_number {s : Str} {v : Int} (h : WritesPrecise s v) : arrowFloatText s = none := by
  have d2 : ∀ n, digits2 n ≠ [] ∧ ∀ x ∈ digits2 n, isDigitChar x = true := by
    intro n
    refine ⟨by simp [digits2], ?_⟩
    intro x hx
    simp only [digits2, List.mem_cons, List.not_mem_nil, or_false] at hx
    rcases hx with rfl | rfl <;> exact isDigit_digitChar _
  have d4 : ∀ n, digits4 n ≠ [] ∧ ∀ x ∈ digits4 n, isDigitChar x = true := by
    intro n
    refine ⟨by simp [digits4], ?_⟩
    intro x hx
    simp only [digits4, List.mem_cons, List.not_mem_nil, or_false] at hx
    rcases hx with rfl | rfl | rfl | rfl <;> exact isDigit_digitChar _
  have dmy : ∀ (st : DateStyle) (a b : Nat) (r : Str), arrowFloatText (digits2 a ++ st.sep :: digits2 b ++ st.sep :: r) = none := by
    intro st a b r
    rw [List.append_assoc, List.cons_append]
    refine strtod_digits _ _ _ (d2 a).1 (d2 a).2 (by cases st <;> decide) (by cases st <;> decide) fun hs => ?_
    exact ⟨digits2 b, st.sep, r, rfl, (d2 b).2, by cases st <;> decide, by cases st <;> decide⟩
  have date : ∀ (st : DateStyle) (d : Date) (r : Str), arrowFloatText (st.write d ++ r) = none := by
    intro st d r
    cases st with
    | iso =>
      simp only [DateStyle.write, List.append_assoc, List.cons_append]
      exact strtod_digits _ _ _ (d4 _).1 (d4 _).2 (by decide) (by decide) (by simp)
    | slash => simpa [DateStyle.write] using dmy .slash d.day d.month (digits4 d.year ++ r)
    | dot => simpa [DateStyle.write] using dmy .dot d.day d.month (digits4 d.year ++ r)
    | dash => simpa [DateStyle.write] using dmy .dash d.day d.month (digits4 d.year ++ r)
  cases h with
  | plain st ts d c k _ _ _ _ _ => exact date _ _ _
  | thousandths st sep d c ms k _ _ _ _ _ _ => rw [List.append_assoc]; exact date _ _ _
  | half st sep b d c k _ _ _ _ _ _ => exact date _ _ _
  | clock b c hc hs => exact C89_date_is_no_number _ _ (.clock b c hc hs)

/-- C101, one column: moments, serial numbers and texts that write moments become a column of these moments.  Missing: as in
`C101_texts_partial`. -/
theorem C101_column_partial (env : Env) (he : env.Polars) (o : ConcatOpts) (hd : o.confDt = true) (hf : o.formats = [])
    (l m : List (Option Val)) (h : ColumnPrecise l m) : fetched env o l = materialise env o.prec m := by
  obtain ⟨hx, hm⟩ := h
  unfold fetched
  congr 1
  unfold resolved
  have hmom : momentTexts env o l = true := momentTexts_mem.mpr fun s hs => by
    obtain ⟨w, hw⟩ := rel_mem hm hs
    cases hw with
    | text _ v h1 h2 => rw [textMoment_precise he hf h1 h2]; rfl
  rw [any_isTs.mpr hx, if_pos rfl, if_pos hd]
  refine rel_map hm _ fun v w h => ?_
  cases h with
  | moment n => rfl
  | serial x => rfl
  | text s v h1 h2 =>
    simp only [asMoment, hmom, if_true]
    rw [textMoment_precise he hf h1 h2]; rfl

theorem ColumnPrecise.resolvable {env : Env} (he : env.Polars) {o : ConcatOpts} (hf : o.formats = []) {l m : List (Option Val)}
    (h : ColumnPrecise l m) {inl : Bool} (hi : (∃ s, some (.str s) ∈ l) → inl = true) : Resolvable env o inl l := by
  obtain ⟨hx, hm⟩ := h
  refine ⟨fun _ _ => .inr fun s hs => ?_, fun _ ht => ?_⟩
  · obtain ⟨w, hw⟩ := rel_mem hm hs
    cases hw with
    | text _ v h1 h2 => rw [he.parseF8]; exact precise_no_number h1
  · by_cases hs : ∃ s, some (.str s) ∈ l
    · refine .inr ⟨hi hs, .inl fun s hs => ?_⟩
      obtain ⟨w, hw⟩ := rel_mem hm hs
      cases hw with
      | text _ v h1 h2 => rw [textMoment_precise he hf h1 h2]; rfl
    · left
      rw [List.any_eq_false]
      intro v hv ht
      rcases v with _ | _ | _ | _ | _ <;> simp [isText] at ht
      exact hs ⟨_, hv⟩

/-- The columns of the grid mean the moments `W`; those with texts have no shared strings (C68). -/
structure VGrid.Precise (V : VGrid) (inline : Int → Bool) (W : Int → List (Option Val)) : Prop where
  span : V.maxSpan = V.length
  column : ∀ k ∈ V.columns, ColumnPrecise (V.column k) (W k)
  inline : ∀ k ∈ V.columns, (∃ s, some (.str s) ∈ V.column k) → inline k = true

theorem VGrid.Precise.resolvable {env : Env} (he : env.Polars) {o : ConcatOpts} (hf : o.formats = []) {V : VGrid}
    {inl : Int → Bool} {W : Int → List (Option Val)} (h : V.Precise inl W) : V.Resolvable env o inl := by
  intro k
  by_cases hk : k ∈ V.columns
  · exact (h.column k hk).resolvable he hf (h.inline k hk)
  · have ha := column_absent hk
    refine ⟨fun _ hk => ?_, fun _ ht => ?_⟩
    · rcases hk with hk | hk
      · obtain ⟨n, hn⟩ := any_isNum.mp hk; exact absurd hn (ha _)
      · obtain ⟨n, hn⟩ := any_isTs.mp hk; exact absurd hn (ha _)
    · obtain ⟨n, hn⟩ := any_isTs.mp ht; exact absurd hn (ha _)

theorem VGrid.Precise.hasData {D : Type} (env : Env) (search : Str → Option (Str → Bool)) (o : ConcatOpts) {V : VGrid}
    {inl : Int → Bool} {W : Int → List (Option Val)} (h : V.Precise inl W) (hne : V.flatten ≠ []) :
    V.HasData env search ({} : ReadArgs D) o := by
  intro row hr
  injection hr with hr
  injection hr with hr
  subst hr
  rw [h.span]
  have : V ≠ [] := by rintro rfl; exact hne rfl
  have := List.length_pos_iff.mpr this
  simpa [HeaderArg.height] using this

theorem VGrid.Precise.table {A D : Type} {env : Env} (he : env.Polars) (lib : Lib A D) (hlib : lib.Lawful)
    (search : Str → Option (Str → Bool)) (reMatch : Str → Str → Py Bool) {o : ConcatOpts} (hd : o.confDt = true)
    (hf : o.formats = []) {V : VGrid} {inl : Int → Bool} {W : Int → List (Option Val)} (h : V.Precise inl W) :
    V.table env lib search reMatch {} o =
      .ok ⟨(List.range V.columns.length).map fun i => "Unnamed. ".toList ++ pyStr i,
        V.columns.map fun k => lib.ofFetched (.arr (materialise env o.prec (W k)))⟩ := by
  rw [table_default env lib hlib search reMatch o V h.span]
  congr 2
  refine List.map_congr_left fun k hk => ?_
  rw [C101_column_partial env he o hd hf _ _ (h.column k hk)]

/-- C101, XLSX: an XLSX workbook whose columns hold moments and texts that write moments, read with polars and
`conflict_resolve="all"`, gives a table of these moments.  Missing: as in `C101_texts_partial`; shared strings (C68); columns
that end before the last row (C58). -/
theorem C101_xlsx_partial {A D : Type} (env : Env) (he : env.Polars) (lib : Lib A D) (hlib : lib.Lawful)
    (search : Str → Option (Str → Bool)) (reMatch : Str → Str → Py Bool) (toInt : Str → Option Int) (pieces : Str → List Str)
    (hpc : Buffered pieces) (iter : IterArgs) (k t : Nat) (hk : iter.skipRows = k) (ht : iter.takeRows = t) (prec : Nat)
    (nulls : NullArg) (isNull : Str → Bool) (hnull : ∀ s, isNull s = (decide (s ∈ errorTexts) || nulls.asks s))
    (b : WBook) (hb : b.Ok env toInt isNull) (name : Str) (rows : List (List WCell)) (hs : b.Selects iter.sheet name rows)
    (hc : ∀ s ∈ b.sheets, ∀ row ∈ s.2, ∀ c ∈ row, c.Ok env isNull b)
    (z : Archive) (hz : ∀ e ∈ b.entries, e ∈ z) (hnd : (z.map (·.1)).Nodup) (V : VGrid)
    (hV : V = ((gridOf rows).values env isNull b.classes b.texts).shownXlsx k t iter.keepEmpty iter.skipCols)
    (hne : V.flatten ≠ []) (W : Int → List (Option Val)) (hW : V.Precise (gridOf rows).inline W) :
    readArchive env lib search reMatch toInt pieces
        { iter := iter, precision := prec, conflict := "all".toList, nulls := nulls } z =
      .ok ⟨(List.range V.columns.length).map fun i => "Unnamed. ".toList ++ pyStr i,
        V.columns.map fun k => lib.ofFetched (.arr (materialise env prec (W k)))⟩ := by
  rw [C85_written env lib search reMatch toInt pieces hpc
    { iter := iter, precision := prec, conflict := "all".toList, nulls := nulls } k t hk ht
    sensible_default isNull hnull _ rfl b hb name rows hs hc z hz hnd V hV
    (hW.resolvable he rfl) (fun _ => hW.hasData env search _ hne), if_neg hne]
  exact hW.table he lib hlib search reMatch conf_all.1 rfl

/-- C101, XLSB.  Missing: as for XLSX. -/
theorem C101_xlsb_partial {A D : Type} (env : Env) (he : env.Polars) (lib : Lib A D) (hlib : lib.Lawful)
    (search : Str → Option (Str → Bool)) (reMatch : Str → Str → Py Bool) (toInt : Str → Option Int) (pieces : Str → List Str)
    (hpc : Buffered pieces) (iter : IterArgs) (k t : Nat) (hk : iter.skipRows = k) (ht : iter.takeRows = t) (prec : Nat)
    (nulls : NullArg)
    (b : BBook) (hb : b.Ok nulls.asks) (name : Str) (rows : List (List BCell)) (hs : b.Selects iter.sheet name rows)
    (hc : ∀ s ∈ b.sheets, ∀ row ∈ s.2, ∀ c ∈ row, c.Ok b) (hv : ∃ row ∈ rows, ∃ c ∈ row, c.blank nulls.asks = false)
    (z : Archive) (hz : ∀ e ∈ b.entries, e ∈ z) (hnd : (z.map (·.1)).Nodup) (hx : workbookXml ∉ z.map (·.1)) (V : VGrid)
    (hV : V = (b.values nulls.asks rows).shownXlsb k t iter.keepEmpty iter.skipCols)
    (hne : V.flatten ≠ []) (W : Int → List (Option Val)) (hW : V.Precise (inlineOf rows) W) :
    readArchive env lib search reMatch toInt pieces
        { iter := iter, precision := prec, conflict := "all".toList, nulls := nulls } z =
      .ok ⟨(List.range V.columns.length).map fun i => "Unnamed. ".toList ++ pyStr i,
        V.columns.map fun k => lib.ofFetched (.arr (materialise env prec (W k)))⟩ := by
  rw [C85_written_xlsb env lib search reMatch toInt pieces hpc
    { iter := iter, precision := prec, conflict := "all".toList, nulls := nulls } k t hk ht
    sensible_default _ rfl b hb name rows hs hc hv z hz hnd hx V hV
    (hW.resolvable he rfl) (fun _ => hW.hasData env search _ hne), if_neg hne]
  exact hW.table he lib hlib search reMatch conf_all.1 rfl

/-- The conversions with polars. -/
def polarsEnv : Env := { arrowEnv with strptime := polarsStrptime, formats := defaultFormats timeFormatsPolars }

example : polarsEnv.Polars := ⟨rfl, rfl, rfl⟩

/-- A column with a date, a text with AM/PM and a text with thousandths of a second. -/
def exPrecise : WBook where
  sheets := [(['S'], [[⟨0, some 1, .plain ['4', '5', '0', '0', '0']⟩], [⟨0, none, .plain "16.03.2023 01:20 PM".toList⟩],
    [⟨0, none, .plain "2023-03-16 10:20:30.125".toList⟩]])]
  shared := []
  formats := [0, 14]
  codes := []

/-- With polars the column is one of moments, without it is one of texts. -/
example : (readArchive polarsEnv exLib (fun _ => none) (fun _ _ => .ok false) exInt (fun s => [s]) { conflict := "all".toList }
      exPrecise.entries).map (·.arrays) =
    .ok [.arr ⟨.ts, [some (.ts 1678838400000), some (.ts 1678972800000), some (.ts 1678962030125)]⟩] ∧
    ((readArchive { arrowEnv with renderTs := arrowRenderTs } exLib (fun _ => none) (fun _ _ => .ok false) exInt (fun s => [s]) { conflict := "all".toList }
      exPrecise.entries).map (·.arrays)) =
    .ok [.arr ⟨.utf8, [some (.str "2023-03-15 00:00:00.000".toList), some (.str "16.03.2023 01:20 PM".toList),
      some (.str "2023-03-16 10:20:30.125".toList)]⟩] := by decide +kernel

end Rxls
