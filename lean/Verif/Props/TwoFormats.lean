import Verif.Spec.TwoFormats
import Verif.Props.XlsxWrite
import Verif.Props.XlsbWrite
import Verif.Props.NumText

/-! # Property C88: saving a workbook as XLSX or as XLSB makes no difference -/

namespace Rxls

theorem utf8_ascii_length (s : Str) (h : ∀ c ∈ s, c.toNat < 128) : (s.flatMap String.utf8EncodeChar).length = s.length := by
  induction s with
  | nil => rfl
  | cons c s ih =>
    rw [List.flatMap_cons, List.length_append, ih fun x hx => h x (by simp [hx]), List.length_cons]
    have hc : c.toNat ≤ 127 := by have := h c (by simp); omega
    have : (String.utf8EncodeChar c).length = 1 := by
      unfold String.utf8EncodeChar
      simp [hc]
    omega

theorem numChar_ascii (c : Char) (h : numChar c = true) : 32 < c.toNat ∧ c.toNat < 128 := by
  unfold numChar isDigitChar at h
  simp only [Bool.or_eq_true, Bool.and_eq_true, decide_eq_true_eq, beq_iff_eq] at h
  rcases h with ((((h | rfl) | rfl) | rfl) | rfl) | rfl
  · omega
  all_goals decide

theorem numChar_text (s : Str) (hne : s ≠ []) (hl : s.length ≤ 8192) (h : ∀ c ∈ s, numChar c = true) : TextOk s := by
  refine ⟨hne, fun c hc => ?_, ?_⟩
  · have := numChar_ascii c (h c hc)
    unfold xmlChar
    simp
    omega
  · rw [utf8_ascii_length s fun c hc => (numChar_ascii c (h c hc)).2]
    exact hl

theorem decimal_text_ne (d : Decimal) (h : d.Ok) : d.text ≠ [] := by
  intro e
  unfold Decimal.text at e
  simp only [List.append_eq_nil_iff, List.map_eq_nil_iff] at e
  rcases h.digit with h | h
  · exact h e.1.1.1.2
  · exact h e.1.2

theorem pyStr_text (i : Nat) (hi : i < 2 ^ 32) : TextOk (pyStr i) := by
  refine ⟨?_, chars_pyStr i, ?_⟩
  · intro h
    have := Nat.length_toDigits_pos (b := 10) (n := i)
    unfold pyStr at h
    rw [h] at this
    exact absurd this (by simp)
  · rw [utf8_ascii_length]
    · unfold pyStr
      have := (Nat.length_toDigits_le_iff (b := 10) (n := i) (k := 10) (by decide) (by decide)).mpr (by omega)
      omega
    · intro c hc
      unfold pyStr at hc
      have := Nat.isDigit_of_mem_toDigits (b := 10) (by decide) (by decide) hc
      simp only [Char.isDigit, Bool.and_eq_true, decide_eq_true_eq, ge_iff_le, UInt32.le_iff_toNat_le] at this
      have h2 : '9'.val.toNat = 57 := rfl
      unfold Char.toNat
      omega

section
variable {env : Env} {toInt : Str → Option Int} {isNull : Str → Bool} {b : DBook}

theorem DBook.Ok.xlsx (ht : ∀ n, toInt (pyStr n) = some (n : Int)) (hb : b.Ok isNull) : b.xlsx.Ok env toInt isNull where
  names := by simpa [DBook.xlsx, List.map_map, Function.comp_def] using hb.names
  name := by
    intro s hs
    obtain ⟨p, hp, rfl⟩ := List.mem_map.mp hs
    exact (hb.name p hp).1
  shared := by
    intro s hs
    obtain ⟨h1, -, h3, h4⟩ := hb.shared s hs
    rw [h3]
    exact ⟨h1, h1.1, h4⟩
  codes := hb.codes
  code := fun p hp => (hb.code p hp).1
  ints := fun n _ => ht n

theorem DBook.Ok.xlsb {asks : Str → Bool} (hle : ∀ s, isNull s = false → asks s = false) (hb : b.Ok isNull) :
    b.xlsb.Ok asks where
  names := by simpa [DBook.xlsb, List.map_map, Function.comp_def] using hb.names
  name := by
    intro s hs
    obtain ⟨p, hp, rfl⟩ := List.mem_map.mp hs
    exact (hb.name p hp).2
  count := by simpa [DBook.xlsb] using hb.count
  shared := fun s hs => ⟨(hb.shared s hs).2.1, hle s (hb.shared s hs).2.2.2⟩
  formats := hb.formats
  codes := hb.codes
  code := fun p hp => (hb.code p hp).2

theorem DCell.Ok.number {w : Nat} {d : Decimal} (h : ∃ x, F64.ofBits w = .fin x ∧ |d.value - x| ≤ |x| / (2 * 10 ^ 16)) (hd : d.Ok) :
    pyFloatText (pyStrip d.text) = some (F64.ofBits w) := by
  obtain ⟨x, hx, hn⟩ := h
  have hv := ofBits_valid w
  rw [hx] at hv ⊢
  rw [pyStrip_of_num _ d.text_num]
  exact C87_seventeen_digits x hv d hd hn

theorem DCell.Ok.xlsx (he : env.pyFloat = pyFloatText) (hi : env.pyInt = pyIntText) (hb : b.Ok isNull) {c : DCell}
    (hc : c.Ok isNull b) : c.xlsx.Ok env isNull b.xlsx := by
  have hcon := hc.content
  obtain ⟨col, style, content⟩ := c
  cases content with
  | number w d =>
    obtain ⟨h1, h2, h3, h4, h5, h6⟩ := hcon
    refine ⟨numChar_text _ (decimal_text_ne d h3) h4 d.text_num, hc.style, fun i h => ?_, fun s h _ => ?_⟩
    · simp [DCell.xlsx] at h
    · simp only [DCell.xlsx, TContent.plain.injEq] at h
      subst h
      left
      rw [he, DCell.Ok.number h2 h3]
      rfl
  | shared i =>
    obtain ⟨h1, h2⟩ := hcon
    have h3 : i < 2 ^ 32 := by have := hb.count.2.1; omega
    refine ⟨pyStr_text i h3, hc.style, fun j h => ?_, fun s h _ => ?_⟩
    · simp only [DCell.xlsx, TContent.shared.injEq] at h
      subst h
      refine ⟨h1, h3, ?_, h2⟩
      rw [hi, C87_shared_number]
    · simp [DCell.xlsx] at h

theorem DCell.Ok.xlsb {c : DCell} (hc : c.Ok isNull b) : c.xlsb.Ok b.xlsb := by
  have hcon := hc.content
  obtain ⟨col, style, content⟩ := c
  cases content with
  | number w d => exact ⟨hc.col, hc.style, hcon.1⟩
  | shared i => exact ⟨hc.col, hc.style, hcon.1⟩

theorem values_xlsb (asks : Str → Bool) (rows : List (List DCell)) :
    b.xlsb.values asks (rows.map (List.map DCell.xlsb)) = b.values rows := by
  unfold BBook.values DBook.values
  rw [List.map_map]
  refine List.map_congr_left fun row _ => ?_
  have hf : (row.map DCell.xlsb).filter (fun c => !c.blank asks) = row.map DCell.xlsb := by
    refine List.filter_eq_self.mpr fun c hc => ?_
    obtain ⟨c, -, rfl⟩ := List.mem_map.mp hc
    obtain ⟨col, style, content⟩ := c
    cases content <;> rfl
  simp only [Function.comp_apply]
  rw [hf, List.map_map]
  refine List.map_congr_left fun c _ => ?_
  obtain ⟨col, style, content⟩ := c
  cases content <;> rfl

theorem values_xlsx (he : env.pyFloat = pyFloatText) (hb : b.Ok isNull) (rows : List (List DCell))
    (hc : ∀ row ∈ rows, ∀ c ∈ row, c.Ok isNull b) :
    (gridOf (rows.map (List.map DCell.xlsx))).values env isNull b.xlsx.classes b.xlsx.texts = b.values rows := by
  unfold TGrid.values gridOf DBook.values
  have hz : (rows.map (List.map DCell.xlsx)).zipIdx = rows.zipIdx.map fun p => (p.1.map DCell.xlsx, p.2) := by
    rw [List.zipIdx_map]
    rfl
  rw [hz, List.map_map, List.map_map]
  have hr : rows.map (fun row => row.map fun c => ((c.col : Int), b.value c)) =
      rows.zipIdx.map fun p => p.1.map fun c => ((c.col : Int), b.value c) := by
    conv_lhs => rw [← List.zipIdx_map_fst 0 rows]
    rw [List.map_map]
    rfl
  rw [hr]
  refine List.map_congr_left fun p hp => ?_
  have hrow : p.1 ∈ rows := by
    have := List.mem_map_of_mem (f := Prod.fst) hp
    rwa [List.zipIdx_map_fst] at this
  have htexts : b.xlsx.texts = b.shared := by
    unfold WBook.texts
    calc b.xlsx.shared.map pyStrip = b.shared.map id := List.map_congr_left fun s hs => (hb.shared s hs).2.2.1
      _ = b.shared := List.map_id _
  have key : ∀ c ∈ p.1, ∀ t : TCell, t = { col := c.xlsx.col, digits := rowDigits p.2, style := c.xlsx.style, content := c.xlsx.content } →
      t.blank isNull = false ∧ t.value env b.xlsx.classes b.xlsx.texts = some (b.value c) ∧ t.col = c.col := by
    intro c hcm t htt
    have hcc := (hc _ hrow c hcm).content
    obtain ⟨col, style, content⟩ := c
    subst htt
    cases content with
    | number w d =>
      obtain ⟨h1, h2, h3, h4, h5, h6⟩ := hcc
      have hs := pyStrip_of_num _ d.text_num
      refine ⟨?_, ?_, rfl⟩
      · simp only [TCell.blank, DCell.xlsx, hs]
        simp [decimal_text_ne d h3, h5]
      · simp only [TCell.value, TCell.cls, DCell.xlsx, Option.getD_some, h6, DBook.value]
        rw [he, DCell.Ok.number h2 h3]
        cases b.dated style <;> rfl
    | shared i =>
      refine ⟨rfl, ?_, rfl⟩
      simp only [TCell.value, DCell.xlsx, htexts, DBook.value]
      rw [List.getElem?_eq_getElem hcc.1, List.getD_eq_getElem _ _ hcc.1]
      rfl
  simp only [Function.comp_apply, List.map_map, rowValues]
  rw [List.filter_eq_self.mpr, List.filterMap_map]
  · rw [← List.filterMap_eq_map]
    refine List.filterMap_congr fun c hcm => ?_
    obtain ⟨-, h2, h3⟩ := key c hcm _ rfl
    simp only [Function.comp_apply]
    rw [h2]
    rfl
  · intro t ht
    obtain ⟨c, hcm, rfl⟩ := List.mem_map.mp ht
    have := (key c hcm _ rfl).1
    simp only [Function.comp_apply]
    rw [this]
    rfl

theorem inline_xlsx (rows : List (List DCell)) : (gridOf (rows.map (List.map DCell.xlsx))).inline = noShared rows := by
  funext k
  unfold TGrid.inline gridOf noShared
  have hz : (rows.map (List.map DCell.xlsx)).zipIdx = rows.zipIdx.map fun p => (p.1.map DCell.xlsx, p.2) := by
    rw [List.zipIdx_map]
    rfl
  rw [hz]
  conv_rhs => rw [← List.zipIdx_map_fst 0 rows]
  simp only [List.all_map, List.map_map, Function.comp_def]
  congr 1
  funext p
  congr 1
  funext c
  obtain ⟨col, style, content⟩ := c
  cases content <;> rfl

theorem inline_xlsb (rows : List (List DCell)) : inlineOf (rows.map (List.map DCell.xlsb)) = noShared rows := by
  funext k
  unfold inlineOf noShared
  simp only [List.all_map, Function.comp_def]
  congr 1
  funext row
  congr 1
  funext c
  obtain ⟨col, style, content⟩ := c
  cases content <;> rfl

end

/-- C88.  One workbook of numbers, dates and shared strings, saved as XLSX and as XLSB, is read as the same table, and which
one: that of the values in the rows shown.  Numbers are read by `float`, indices by `int` of Python.  The two formats must
show the same rows for `skip_rows`, `take_rows` and `take_rows_non_empty` (exactly when, says `C65_rows_exact`).  Partial:
numbers in cell formats that XLSX takes for text (`C88_formats`, `C88_general`), texts with surrounding white space (XLSX
strips them) and nulls are left out. -/
theorem C88_same_table_partial {A D : Type} (env : Env) (he : env.pyFloat = pyFloatText) (hi : env.pyInt = pyIntText)
    (toInt : Str → Option Int) (hti : ∀ s n, pyIntText s = some n → toInt s = some (n : Int)) (lib : Lib A D) (search : Str → Option (Str → Bool)) (reMatch : Str → Str → Py Bool)
    (pieces : Str → List Str) (hpc : Buffered pieces)
    (a : FileArgs D) (k t : Nat) (hk : a.iter.skipRows = k) (ht : a.iter.takeRows = t) (ha : a.table.Sensible)
    (isNull : Str → Bool) (hnull : ∀ s, isNull s = (decide (s ∈ errorTexts) || a.nulls.asks s))
    (o : ConcatOpts) (ho : o = concatOpts a.conflict a.formats a.precision)
    (b : DBook) (hb : b.Ok isNull) (name : Str) (rows : List (List DCell)) (hs : b.Selects a.iter.sheet name rows)
    (hv : ∃ row ∈ rows, row ≠ [])
    (zx zb : Archive) (hzx : ∀ e ∈ b.xlsx.entries, e ∈ zx) (hnx : (zx.map (·.1)).Nodup)
    (hzb : ∀ e ∈ b.xlsb.entries, e ∈ zb) (hnb : (zb.map (·.1)).Nodup) (hx : workbookXml ∉ zb.map (·.1)) (V : VGrid)
    (hVx : V = (b.values rows).shownXlsx k t a.iter.keepEmpty a.iter.skipCols)
    (hVb : V = (b.values rows).shownXlsb k t a.iter.keepEmpty a.iter.skipCols)
    (hres : V.Resolvable env o (noShared rows)) (hdata : V.flatten ≠ [] → V.HasData env search a.table o) :
    readArchive env lib search reMatch toInt pieces a zx =
      (if V.flatten = [] then .error .valueError else V.table env lib search reMatch a.table o) ∧
    readArchive env lib search reMatch toInt pieces a zb =
      (if V.flatten = [] then .error .valueError else V.table env lib search reMatch a.table o) := by
  obtain ⟨i, hi', hsel⟩ := hs
  have hrows := hb.cells _ (List.mem_of_getElem? hi')
  have hle : ∀ s, isNull s = false → a.nulls.asks s = false := by
    intro s h
    rw [hnull s] at h
    exact (Bool.or_eq_false_iff.mp h).2
  constructor
  · refine C85_written env lib search reMatch toInt pieces hpc a k t hk ht ha isNull hnull o ho b.xlsx
      (hb.xlsx fun n => hti _ _ (C87_shared_number n)) name (rows.map (List.map DCell.xlsx))
      ⟨i, by simp [DBook.xlsx, hi'], hsel⟩ ?_ zx hzx hnx V ?_ ?_ hdata
    · intro s hs row hrow c hc
      obtain ⟨p, hp, rfl⟩ := List.mem_map.mp hs
      obtain ⟨r, hr, rfl⟩ := List.mem_map.mp hrow
      obtain ⟨d, hd, rfl⟩ := List.mem_map.mp hc
      exact (hb.cells p hp r hr d hd).xlsx he hi hb
    · rw [values_xlsx he hb rows hrows, hVx]
    · rw [inline_xlsx]; exact hres
  · refine C85_written_xlsb env lib search reMatch toInt pieces hpc a k t hk ht ha o ho b.xlsb (hb.xlsb hle) name
      (rows.map (List.map DCell.xlsb)) ⟨i, by simp [DBook.xlsb, hi'], hsel⟩ ?_ ?_ zb hzb hnb hx V ?_ ?_ hdata
    · intro s hs row hrow c hc
      obtain ⟨p, hp, rfl⟩ := List.mem_map.mp hs
      obtain ⟨r, hr, rfl⟩ := List.mem_map.mp hrow
      obtain ⟨d, hd, rfl⟩ := List.mem_map.mp hc
      exact (hb.cells p hp r hr d hd).xlsb
    · obtain ⟨row, hr, hne⟩ := hv
      obtain ⟨c, hc⟩ := List.exists_mem_of_ne_nil row hne
      refine ⟨_, List.mem_map_of_mem hr, _, List.mem_map_of_mem hc, ?_⟩
      obtain ⟨col, style, content⟩ := c
      cases content <;> rfl
    · rw [values_xlsb, hVb]
    · rw [inline_xlsb]; exact hres

theorem hasSub_infix (t s : Str) : hasSub t s = true ↔ t <:+: s := by
  induction s with
  | nil => simp [hasSub]
  | cons c s ih =>
    rw [hasSub, Bool.or_eq_true, ih, List.isPrefixOf_iff_prefix, List.infix_cons_iff]

/-- C88, cell formats.  Both readers see the same in a number of a cell format (the condition of `DCell.Ok`) exactly if its
format shows a date or else is among those XLSX takes for numbers: nine built-in ones, and those whose code, up to a
semicolon, is `0` or has a point and two zeros. -/
theorem C88_formats (b : DBook) (hcode : ∀ p ∈ b.codes, '\n' ∉ p.2 ∧ PlainEscapes (beforeSemicolon p.2)) (style n : Nat)
    (hn : b.formats[style]? = some n) :
    (b.xlsx.classes.getD style .other = if b.dated style then .temporal else .numeric) ↔
      (b.dated style = true ↔ ¬ (n ∈ [1, 2, 3, 4, 37, 38, 39, 40, 48] ∨ ∃ code, (n, code) ∈ b.codes ∧
        (beforeSemicolon code = ['0'] ∨ ['.', '0', '0'] <:+: beforeSemicolon code))) := by
  have hcls : b.xlsx.classes.getD style .other = classOf (b.codes.map fun p => (pyStr p.1, p.2)) (pyStr n) n := by
    unfold WBook.classes DBook.xlsx
    rw [List.getD_eq_getElem?_getD, List.getElem?_map, hn]
    rfl
  have hN : ((∃ c ∈ b.codes.map fun p => (pyStr p.1, p.2), c.1 = pyStr n ∧ fmtNumeric (beforeSemicolon c.2) = true) ∨
      (∃ m ∈ numericStyles, (m : Int) = n)) ↔ (n ∈ [1, 2, 3, 4, 37, 38, 39, 40, 48] ∨ ∃ code, (n, code) ∈ b.codes ∧
        (beforeSemicolon code = ['0'] ∨ ['.', '0', '0'] <:+: beforeSemicolon code)) := by
    rw [or_comm]
    refine or_congr ⟨?_, ?_⟩ ⟨?_, ?_⟩
    · rintro ⟨m, hm, e⟩
      have : m = n := by exact_mod_cast e
      exact this ▸ hm
    · exact fun h => ⟨n, h, rfl⟩
    · rintro ⟨c, hc, h1, h2⟩
      obtain ⟨⟨m, code⟩, hp, rfl⟩ := List.mem_map.mp hc
      obtain rfl : m = n := pyStr_inj h1
      refine ⟨code, hp, ?_⟩
      simpa [fmtNumeric, hasSub_infix, dotZeros] using h2
    · rintro ⟨code, hp, h⟩
      refine ⟨_, List.mem_map.mpr ⟨_, hp, rfl⟩, rfl, ?_⟩
      simpa [fmtNumeric, hasSub_infix, dotZeros] using h
  have hT : ((∃ c ∈ b.codes.map fun p => (pyStr p.1, p.2), c.1 = pyStr n ∧ fmtTemporal (beforeSemicolon c.2) = true) ∨
      (∃ m ∈ temporalStyles, (m : Int) = n)) ↔ b.dated style = true := by
    have hd : b.dated style = (decide (n ∈ temporalStyles) || b.codes.any fun p => decide (p.1 = n) && decide (showsDate (beforeSemicolon p.2))) := by
      unfold DBook.dated BBook.dated DBook.xlsb
      rw [hn]
    have htmp : ∀ p ∈ b.codes, (fmtTemporal (beforeSemicolon p.2) = true ↔ showsDate (beforeSemicolon p.2)) := fun p hp =>
      fmtTemporal_iff _ (fun h => (hcode p hp).1 ((List.takeWhile_sublist _).subset h)) (hcode p hp).2
    rw [hd, Bool.or_eq_true, decide_eq_true_eq, List.any_eq_true, or_comm]
    refine or_congr ⟨?_, ?_⟩ ⟨?_, ?_⟩
    · rintro ⟨m, hm, e⟩
      have : m = n := by exact_mod_cast e
      exact this ▸ hm
    · exact fun h => ⟨n, h, rfl⟩
    · rintro ⟨c, hc, h1, h2⟩
      obtain ⟨p, hp, rfl⟩ := List.mem_map.mp hc
      refine ⟨p, hp, ?_⟩
      simp [pyStr_inj h1, (htmp p hp).mp h2]
    · rintro ⟨p, hp, h⟩
      simp only [Bool.and_eq_true, decide_eq_true_eq] at h
      exact ⟨_, List.mem_map.mpr ⟨p, hp, rfl⟩, by rw [h.1], (htmp p hp).mpr h.2⟩
  rw [hcls]
  unfold classOf
  generalize (n ∈ [1, 2, 3, 4, 37, 38, 39, 40, 48] ∨ ∃ code, (n, code) ∈ b.codes ∧
    (beforeSemicolon code = ['0'] ∨ ['.', '0', '0'] <:+: beforeSemicolon code)) = N at hN ⊢
  by_cases h1 : N
  · rw [if_pos (hN.mpr h1)]
    cases h2 : b.dated style <;> simp [h1]
  · rw [if_neg fun h => h1 (hN.mp h)]
    cases h2 : b.dated style
    · rw [if_neg fun h => by have := hT.mp h; rw [h2] at this; cases this]
      simp [h1]
    · rw [if_pos (hT.mpr h2)]
      simp [h1]

/-- Python's `float` and `int`. -/
def textEnv : Env := { demoEnv with pyFloat := pyFloatText, pyInt := pyIntText }

/-- A workbook: a text and a date; a number (0.1 with 17 digits) and a date and time. -/
def exDBook : DBook where
  sheets := [(['S'], [[⟨0, 0, .shared 0⟩, ⟨2, 1, .number 0x40E5F90000000000 ⟨none, [4, 5, 0, 0, 0], false, [], none⟩⟩],
    [⟨1, 2, .number 0x3FB999999999999A ⟨none, [1], true, [0, 0, 0, 0, 0, 0, 0, 0, 0, 0, 0, 0, 0, 0, 0, 1], some (true, some true, [1])⟩⟩,
     ⟨2, 3, .number 0xC059600000000000 ⟨some true, [1, 0, 1], true, [5], none⟩⟩]])]
  shared := [['é', ' ', 'x']]
  formats := [0, 14, 2, 164]
  codes := [(164, "dd.mm.yy".toList)]

def exReadTwo (z : Archive) : Py (List Fetched) :=
  (readArchive textEnv exLib (fun _ => none) (fun _ _ => .ok false) exInt (fun s => [s]) {} z).map (·.arrays)

example : ∀ i < 4, (exDBook.xlsx.classes.getD i .other = (if exDBook.dated i then .temporal else .numeric)) ↔ i ≠ 0 := by
  decide +kernel

/-- 45000 is 15 March 2023; a negative number, which is no date in Excel, counts from 1970. -/
example : exReadTwo exDBook.xlsx.entries = .ok [.arr ⟨.utf8, [some (.str ['é', ' ', 'x']), none]⟩,
      .arr ⟨.f8, [none, some (.f8 (F64.ofBits 0x3FB999999999999A))]⟩,
      .arr ⟨.ts, [some (.ts 1678838400000), some (.ts (-8769600000))]⟩] ∧
    exReadTwo exDBook.xlsb.entries = exReadTwo exDBook.xlsx.entries := by decide +kernel

/-- It satisfies the conditions. -/
example : exDBook.Ok fun s => decide (s ∈ errorTexts) := by
  have mark : ∀ s : Str, (match s with | [] => true | c :: _ => decide (c.toNat ≠ 0xFEFF ∧ c.toNat ≠ 0xFFFE)) = true → NoMark s := by
    rintro _ h c t rfl
    simpa using h
  refine ⟨by decide, ?_, by decide, ?_, by decide, by decide, ?_, ?_⟩
  · intro s hs
    simp only [exDBook, List.mem_singleton] at hs
    subst hs
    exact ⟨by unfold Chars; decide +kernel, mark _ (by decide), by decide⟩
  · intro s hs
    simp only [exDBook, List.mem_singleton] at hs
    subst hs
    exact ⟨⟨by decide, by unfold Chars; decide +kernel, by decide +kernel⟩, ⟨mark _ (by decide), by decide +kernel⟩, by decide +kernel, by decide +kernel⟩
  · intro p hp
    simp only [exDBook, List.mem_singleton] at hp
    subst hp
    exact ⟨by unfold Chars; decide +kernel, by decide +kernel⟩
  · intro s hs row hrow c hc
    simp only [exDBook, List.mem_singleton] at hs
    subst hs
    simp only [List.mem_cons, List.not_mem_nil, or_false] at hrow
    rcases hrow with rfl | rfl <;> simp only [List.mem_cons, List.not_mem_nil, or_false] at hc <;> rcases hc with rfl | rfl
    · exact ⟨by decide, by decide, by decide, by decide +kernel⟩
    · exact ⟨by decide, by decide, by decide, ⟨45000, by decide +kernel, by decide +kernel⟩, ⟨by decide, by decide, by decide⟩,
        by decide +kernel, by decide +kernel, by decide +kernel⟩
    · exact ⟨by decide, by decide, by decide, ⟨_, (by decide +kernel : _ = F64.fin (3602879701896397 / 36028797018963968)), by decide +kernel⟩,
        ⟨by decide, by decide, by decide⟩, by decide +kernel, by decide +kernel, by decide +kernel⟩
    · exact ⟨by decide, by decide, by decide, ⟨-101.5, by decide +kernel, by decide +kernel⟩, ⟨by decide, by decide, by decide⟩,
        by decide +kernel, by decide +kernel, by decide +kernel⟩

/-- The workbook with one number, of the first cell format (General), or with that format exchanged. -/
def exGeneral (fmt : Nat) : DBook where
  sheets := [(['S'], [[⟨0, 0, .number 0x404D800000000000 ⟨none, [5, 9], false, [], none⟩⟩]])]
  shared := []
  formats := [fmt]

/-- Finding, C88 (see C50).  A number in a cell of format General, or a percentage, is a number in XLSB and a text in
XLSX. -/
theorem C88_general : ∀ fmt ∈ [0, 9, 10, 11, 12, 13],
    exReadTwo (exGeneral fmt).xlsx.entries = .ok [.arr ⟨.utf8, [some (.str ['5', '9'])]⟩] ∧
    exReadTwo (exGeneral fmt).xlsb.entries = .ok [.arr ⟨.i8, [some (.i8 59)]⟩] := by
  decide +kernel

end Rxls
