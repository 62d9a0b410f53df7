import Verif.Spec.Differential
import Verif.Props.XlsxParts
import Verif.Props.EndToEndXlsx
import Verif.Props.Biff

/-! # Property C103: formats of conditional formatting and tables are not formats of cells -/

namespace Rxls

theorem mem_dictSet {κ α : Type} [DecidableEq κ] (d : List (κ × α)) (k : κ) (v : α) (y : κ) (w : α) :
    (y, w) ∈ dictSet d k v ↔ (y = k ∧ w = v) ∨ (y ≠ k ∧ (y, w) ∈ d) := by
  unfold dictSet
  split
  · rename_i h
    obtain ⟨p, hp, hpk⟩ := List.any_eq_true.1 h
    have hpk : p.1 = k := by simpa using hpk
    rw [List.mem_map]
    constructor
    · rintro ⟨q, hq, he⟩
      split at he
      · injection he with h1 h2
        exact .inl ⟨h1.symm, h2.symm⟩
      · rename_i hne
        subst he
        exact .inr ⟨hne, hq⟩
    · rintro (⟨rfl, rfl⟩ | ⟨hne, hm⟩)
      · exact ⟨p, hp, by rw [if_pos hpk]⟩
      · exact ⟨(y, w), hm, by rw [if_neg hne]⟩
  · rename_i h
    have hk : ∀ w, (k, w) ∉ d := by
      intro w hm
      exact h (List.any_eq_true.2 ⟨_, hm, by simp⟩)
    rw [List.mem_append, List.mem_singleton]
    constructor
    · rintro (hm | he)
      · refine .inr ⟨?_, hm⟩
        rintro rfl
        exact hk _ hm
      · injection he with h1 h2
        exact .inl ⟨h1, h2⟩
    · rintro (⟨rfl, rfl⟩ | ⟨_, hm⟩)
      · exact .inr rfl
      · exact .inl hm

theorem codeOf_snoc (fs : List (Str × Str)) (p : Str × Str) (y : Str) :
    codeOf (fs ++ [p]) y = if p.1 = y then some p.2 else codeOf fs y := by
  unfold codeOf
  rw [List.filter_append]
  by_cases h : p.1 = y
  · simp [h]
  · simp [h]

theorem mem_codes (l : List (Str × Str)) (y w : Str) :
    (y, w) ∈ l.foldl (fun d p => dictSet d p.1 (beforeSemicolon p.2)) [] ↔
      ∃ c, codeOf l y = some c ∧ w = beforeSemicolon c := by
  induction l using List.reverseRecOn with
  | nil => simp [codeOf]
  | append_singleton l p ih =>
    rw [List.foldl_append, List.foldl_cons, List.foldl_nil, mem_dictSet, codeOf_snoc, ih]
    by_cases h : p.1 = y
    · subst h
      simp
    · have h' : ¬ y = p.1 := fun e => h e.symm
      simp [h, h']

theorem stylesXml_codes (es : List Xml) (h : StylesComplete es) : ∀ (fms : List (Str × Str)) (xfs : List Str),
    stylesXml fms xfs es =
      .ok ((numFmts es).foldl (fun d p => dictSet d p.1 (beforeSemicolon p.2)) fms, xfs ++ cellFmts es) := by
  induction es with
  | nil => intro fms xfs; simp [stylesXml, numFmts, cellFmts]
  | cons e es ih =>
    intro fms xfs
    have ih := ih fun t a hm => h t a (by simp [hm])
    cases e with
    | text s => simpa [stylesXml, numFmts, cellFmts] using ih fms xfs
    | close s => simpa [stylesXml, numFmts, cellFmts] using ih fms xfs
    | start t a =>
      obtain ⟨h1, h2⟩ := h t a (by simp)
      rw [stylesXml]
      by_cases ht : t = tagNumFmt
      · obtain ⟨hi, hc⟩ := h1 ht
        obtain ⟨i, hi⟩ := Option.isSome_iff_exists.1 hi
        obtain ⟨c, hc⟩ := Option.isSome_iff_exists.1 hc
        have hxf : t ≠ tagXf := by rw [ht]; decide
        have e1 : numFmts (.start t a :: es) = (i, c) :: numFmts es := by
          simp [numFmts, ht, hi, hc]
        have e2 : cellFmts (.start t a :: es) = cellFmts es := by
          simp [cellFmts, hxf]
        rw [if_pos ht, e1, e2]
        simp only [attrAt, hi, hc, ih]
        rfl
      · rw [if_neg ht]
        have e1 : numFmts (.start t a :: es) = numFmts es := by
          simp [numFmts, ht]
        rw [e1]
        by_cases hx : t = tagXf ∧ (attrGet a attXfId).isSome
        · rw [if_pos hx]
          obtain ⟨i, hi⟩ := Option.isSome_iff_exists.1 (h2 hx.1 hx.2)
          have e2 : cellFmts (.start t a :: es) = i :: cellFmts es := by
            simp only [cellFmts, List.filterMap_cons, if_pos hx, hi]
          rw [e2]
          simp only [attrAt, hi]
          rw [ih]
          simp
        · rw [if_neg hx]
          have e2 : cellFmts (.start t a :: es) = cellFmts es := by
            simp only [cellFmts, List.filterMap_cons, if_neg hx]
          rw [e2, ih]

/-- C103, exact: whether or not ids of custom formats repeat, looking up cell format `i` finds the class of the last code
with its format id, wherever in the style sheet that code stands. -/
theorem C103_exact (toInt : Str → Option Int) (es : List Xml) (h : StylesComplete es)
    (hi : ∀ y ∈ cellFmts es, (toInt y).isSome) :
    ∃ l, xlsxStyles toInt ⟨es, false⟩ = .ok l ∧
      ∀ i y n, (cellFmts es)[i]? = some y → toInt y = some n →
      (l.find? fun p => p.1 = pyStr i).map (·.2) = (classWith (codeOf (numFmts es) y) y n).tag := by
  have h0 := stylesXml_codes es h [] []
  simp only [List.nil_append] at h0
  have hany : ((cellFmts es).any fun y => (toInt y).isNone) = false := by
    rw [List.any_eq_false]
    intro y hy
    have := hi y hy
    cases h : toInt y <;> simp_all
  unfold xlsxStyles
  simp only [h0, hany, Bool.false_eq_true, if_false]
  refine ⟨_, rfl, ?_⟩
  intro i y n hiy hyn
  rw [find_map_const]
  have hfind : ∀ (l : List Str) (v : Nat) (k : Str), (l.map fun k => (k, v)).find? (fun p => p.1 = k) =
      if k ∈ l then some (k, v) else none := by
    intro l v k
    have := find_map_const l v k []
    simpa using this
  rw [hfind]
  have hbuilt : ∀ (ids : List Nat), pyStr i ∈ xfsWith (cellFmts es) (builtinFmt toInt ids) ↔ ∃ m ∈ ids, (m : Int) = n := by
    intro ids
    rw [mem_xfsWith _ _ _ _ hiy]
    simp [builtinFmt, hyn]
  have hcust : ∀ (q : Str → Bool), pyStr i ∈
        (((numFmts es).foldl (fun d p => dictSet d p.1 (beforeSemicolon p.2)) []).flatMap fun p =>
          if q p.2 = true then xfsWith (cellFmts es) (fun z => z = p.1) else []) ↔
      ∃ c, codeOf (numFmts es) y = some c ∧ q (beforeSemicolon c) = true := by
    intro q
    rw [List.mem_flatMap]
    constructor
    · rintro ⟨⟨k, w⟩, hp, hm⟩
      simp only at hm
      split at hm
      next hq =>
        rw [mem_xfsWith _ _ _ _ hiy] at hm
        have hk : y = k := by simpa using hm
        subst hk
        obtain ⟨c, h1, rfl⟩ := (mem_codes _ _ _).1 hp
        exact ⟨c, h1, hq⟩
      next => simp at hm
    · rintro ⟨c, hc, hq⟩
      refine ⟨(y, beforeSemicolon c), (mem_codes _ _ _).2 ⟨c, hc, rfl⟩, ?_⟩
      simp only [hq, if_true]
      rw [mem_xfsWith _ _ _ _ hiy]
      simp
  have hc1 := hcust fmtNumeric
  have hc2 := hcust fun f => !fmtNumeric f && fmtTemporal f
  simp only [List.mem_append, hbuilt, hc1, hc2]
  have h20 : TYPE_NUMERIC = 0x20 := rfl
  have h24 : TYPE_NUMERIC ||| REPR_TEMPORAL = 0x24 := rfl
  have hex : ∀ q : Str → Bool, (∃ c ∈ (codeOf (numFmts es) y).toList.map fun c => (y, c), c.1 = y ∧ q (beforeSemicolon c.2) = true) ↔
      ∃ c, codeOf (numFmts es) y = some c ∧ q (beforeSemicolon c) = true := by
    intro q
    cases codeOf (numFmts es) y <;> simp
  unfold classWith classOf
  simp only [hex]
  by_cases hnum : (∃ c, codeOf (numFmts es) y = some c ∧ fmtNumeric (beforeSemicolon c) = true) ∨
      ∃ m ∈ numericStyles, (m : Int) = n
  · rw [if_pos hnum, if_pos hnum]
    rfl
  · rw [if_neg hnum, if_neg hnum]
    have heq : ((∃ c, codeOf (numFmts es) y = some c ∧ (!fmtNumeric (beforeSemicolon c) && fmtTemporal (beforeSemicolon c)) = true) ∨
        ∃ m ∈ temporalStyles, (m : Int) = n) ↔ ((∃ c, codeOf (numFmts es) y = some c ∧ fmtTemporal (beforeSemicolon c) = true) ∨
        ∃ m ∈ temporalStyles, (m : Int) = n) := by
      refine or_congr ⟨?_, ?_⟩ Iff.rfl
      · rintro ⟨c, hc, h2⟩
        simp only [Bool.and_eq_true] at h2
        exact ⟨c, hc, h2.2⟩
      · rintro ⟨c, hc, h2⟩
        refine ⟨c, hc, ?_⟩
        have : fmtNumeric (beforeSemicolon c) = false := by
          by_contra hh
          exact hnum (Or.inl ⟨c, hc, by simpa using hh⟩)
        simp [this, h2]
    by_cases ht : (∃ c, codeOf (numFmts es) y = some c ∧ fmtTemporal (beforeSemicolon c) = true) ∨
        ∃ m ∈ temporalStyles, (m : Int) = n
    · rw [if_pos ht, if_pos (heq.2 ht)]
      rfl
    · rw [if_neg ht, if_neg (fun hh => ht (heq.1 hh))]
      rfl

theorem numFmts_cons (e : Xml) (es : List Xml) : numFmts (e :: es) = numFmts [e] ++ numFmts es := by
  rw [numFmts, numFmts, numFmts, ← List.filterMap_append]
  rfl

theorem cellFmts_cons (e : Xml) (es : List Xml) : cellFmts (e :: es) = cellFmts [e] ++ cellFmts es := by
  rw [cellFmts, cellFmts, cellFmts, ← List.filterMap_append]
  rfl

theorem numFmts_dxfs (a : List (Str × Str)) : numFmts [.start tagDxfs a] = [] := by
  have : tagDxfs ≠ tagNumFmt := by decide
  simp [numFmts, this]

theorem cellFmts_dxfs (a : List (Str × Str)) : cellFmts [.start tagDxfs a] = [] := by
  have : tagDxfs ≠ tagXf := by decide
  simp [cellFmts, this]

/-- The formats of a style sheet are those outside and those inside. -/
theorem split_dxfs : ∀ (b : Bool) (es : List Xml),
    (∀ y, (∀ p ∈ numFmts (insideDxfs b es), p.1 ≠ y) →
      (numFmts es).filter (fun p => p.1 = y) = (numFmts (outsideDxfs b es)).filter fun p => p.1 = y) ∧
    (cellFmts (insideDxfs b es) = [] → cellFmts es = cellFmts (outsideDxfs b es))
  | b, [] => by simp [insideDxfs, outsideDxfs, numFmts, cellFmts]
  | false, .start t a :: es => by
    by_cases ht : t = tagDxfs
    · subst ht
      obtain ⟨h1, h2⟩ := split_dxfs true es
      simp only [insideDxfs, outsideDxfs, if_true]
      rw [numFmts_cons, cellFmts_cons, numFmts_dxfs, cellFmts_dxfs]
      exact ⟨h1, h2⟩
    · obtain ⟨h1, h2⟩ := split_dxfs false es
      simp only [insideDxfs, outsideDxfs, if_neg ht]
      rw [numFmts_cons, cellFmts_cons, numFmts_cons _ (outsideDxfs _ _), cellFmts_cons _ (outsideDxfs _ _)]
      refine ⟨fun y hy => ?_, fun h => ?_⟩
      · rw [List.filter_append, List.filter_append, h1 y hy]
      · rw [h2 h]
  | false, .text s :: es => by
    obtain ⟨h1, h2⟩ := split_dxfs false es
    exact ⟨fun y hy => h1 y hy, fun h => h2 h⟩
  | false, .close s :: es => by
    obtain ⟨h1, h2⟩ := split_dxfs false es
    exact ⟨fun y hy => h1 y hy, fun h => h2 h⟩
  | true, .close t :: es => by
    by_cases ht : t = tagDxfs
    · obtain ⟨h1, h2⟩ := split_dxfs false es
      simp only [insideDxfs, outsideDxfs, if_pos ht]
      exact ⟨fun y hy => h1 y hy, fun h => h2 h⟩
    · obtain ⟨h1, h2⟩ := split_dxfs true es
      simp only [insideDxfs, outsideDxfs, if_neg ht]
      exact ⟨fun y hy => h1 y hy, fun h => h2 h⟩
  | true, .text s :: es => by
    obtain ⟨h1, h2⟩ := split_dxfs true es
    exact ⟨fun y hy => h1 y hy, fun h => h2 h⟩
  | true, .start t a :: es => by
    obtain ⟨h1, h2⟩ := split_dxfs true es
    simp only [insideDxfs, outsideDxfs]
    rw [numFmts_cons _ es, cellFmts_cons _ es, numFmts_cons _ (insideDxfs _ _), cellFmts_cons _ (insideDxfs _ _)]
    refine ⟨fun y hy => ?_, fun h => ?_⟩
    · rw [List.filter_append, h1 y fun p hp => hy p (List.mem_append.2 (.inr hp))]
      have : (numFmts [.start t a]).filter (fun p => p.1 = y) = [] := by
        rw [List.filter_eq_nil_iff]
        intro p hp
        simpa using hy p (List.mem_append.2 (.inl hp))
      rw [this, List.nil_append]
    · obtain ⟨e1, e2⟩ := List.append_eq_nil_iff.1 h
      rw [e1, List.nil_append, h2 e2]

theorem outside_sub : ∀ (b : Bool) (es : List Xml), ∀ e ∈ outsideDxfs b es, e ∈ es
  | b, [], e, h => by cases b <;> simp [outsideDxfs] at h
  | false, .start t a :: es, e, h => by
    simp only [outsideDxfs] at h
    split at h
    · exact List.mem_cons_of_mem _ (outside_sub true es e h)
    · rcases List.mem_cons.1 h with rfl | h
      · exact List.mem_cons_self
      · exact List.mem_cons_of_mem _ (outside_sub false es e h)
  | false, .text s :: es, e, h => by
    rcases List.mem_cons.1 h with rfl | h
    · exact List.mem_cons_self
    · exact List.mem_cons_of_mem _ (outside_sub false es e h)
  | false, .close s :: es, e, h => by
    rcases List.mem_cons.1 h with rfl | h
    · exact List.mem_cons_self
    · exact List.mem_cons_of_mem _ (outside_sub false es e h)
  | true, .close t :: es, e, h => by
    simp only [outsideDxfs] at h
    split at h
    · exact List.mem_cons_of_mem _ (outside_sub false es e h)
    · exact List.mem_cons_of_mem _ (outside_sub true es e h)
  | true, .text s :: es, e, h => List.mem_cons_of_mem _ (outside_sub true es e h)
  | true, .start t a :: es, e, h => List.mem_cons_of_mem _ (outside_sub true es e h)

/-- C103, the part that holds: differential formats, none of whose ids is the format id of a cell format, do not change
the class of any cell format.  Missing: shared ids, where it is false (below). -/
theorem C103_differential_partial (toInt : Str → Option Int) (es : List Xml) (h : StylesComplete es)
    (hi : ∀ y ∈ cellFmts es, (toInt y).isSome) (hx : cellFmts (insideDxfs false es) = [])
    (hd : ∀ p ∈ numFmts (insideDxfs false es), p.1 ∉ cellFmts es) :
    ∃ l l', xlsxStyles toInt ⟨es, false⟩ = .ok l ∧ xlsxStyles toInt ⟨outsideDxfs false es, false⟩ = .ok l' ∧
      cellFmts (outsideDxfs false es) = cellFmts es ∧ ∀ i < (cellFmts es).length,
        (l.find? fun p => p.1 = pyStr i).map (·.2) = (l'.find? fun p => p.1 = pyStr i).map (·.2) := by
  obtain ⟨s1, s2⟩ := split_dxfs false es
  have hc := s2 hx
  obtain ⟨l, h1, h2⟩ := C103_exact toInt es h hi
  obtain ⟨l', h1', h2'⟩ := C103_exact toInt (outsideDxfs false es) (fun t a hm => h t a (outside_sub _ _ _ hm))
    (by rw [← hc]; exact hi)
  refine ⟨l, l', h1, h1', hc.symm, fun i hil => ?_⟩
  have hy := List.getElem?_eq_getElem hil
  obtain ⟨n, hn⟩ := Option.isSome_iff_exists.1 (hi _ (List.getElem_mem hil))
  rw [h2 i _ n hy hn, h2' i _ n (by rw [← hc]; exact hy) hn]
  have : codeOf (numFmts es) (cellFmts es)[i] = codeOf (numFmts (outsideDxfs false es)) (cellFmts es)[i] := by
    unfold codeOf
    rw [s1 _ fun p hp he => hd p hp (he ▸ List.getElem_mem hil)]
  rw [this]

/-- C103 (XLSB): the styles of an XLSB file depend on its `BrtFmt` and `BrtXF` records only; those of differential formats
(`BrtDXF`, 507, among others) do not matter. -/
theorem C103_xlsb (part part' : Bytes)
    (h : (scanBiff none part).filter (fun r => r.recId = 44 ∨ r.recId = 47) =
      (scanBiff none part').filter fun r => r.recId = 44 ∨ r.recId = 47) : xlsbStyles part = xlsbStyles part' := by
  have key : ∀ k, k = 44 ∨ k = 47 → scanBiff (some [k]) part = scanBiff (some [k]) part' := by
    intro k hk
    rw [C04_only_filter, C04_only_filter]
    have := congrArg (List.filter fun r : Record => decide (r.recId = k)) h
    rw [List.filter_filter, List.filter_filter] at this
    have e : ∀ l : List Record, l.filter (fun r => decide ([k] = [] ∨ r.recId ∈ [k])) =
        l.filter fun r => decide (r.recId = k) && decide (r.recId = 44 ∨ r.recId = 47) := by
      intro l
      refine List.filter_congr fun r _ => ?_
      rw [← Bool.decide_and]
      refine decide_eq_decide.2 ?_
      simp only [List.mem_singleton, reduceCtorEq, false_or, List.cons_ne_self]
      rcases hk with rfl | rfl <;> omega
    rw [e, e, this]
  unfold xlsbStyles
  rw [key 44 (.inl rfl), key 47 (.inr rfl)]

/-- The style sheet of `exXlsxFile` with one differential format. -/
def exDxfStyles (id code : Str) : List Xml :=
  [.start ['s'] [], exXf ['0'], .close tagXf, exXf ['1', '4'], .close tagXf, exXf ['2'], .close tagXf,
   .start tagDxfs [], .start ['d', 'x', 'f'] [], .start tagNumFmt [(attNumFmtId, id), (attFormatCode, code)],
   .close tagNumFmt, .close ['d', 'x', 'f'], .close tagDxfs, .close ['s']]

theorem exDxfStyles_complete (id code : Str) : StylesComplete (exDxfStyles id code) := by
  intro t a hm
  simp only [exDxfStyles, exXf, List.mem_cons, List.not_mem_nil, or_false, Xml.start.injEq, reduceCtorEq, false_or] at hm
  rcases hm with ⟨h1, h2⟩ | ⟨h1, h2⟩ | ⟨h1, h2⟩ | ⟨h1, h2⟩ | ⟨h1, h2⟩ | ⟨h1, h2⟩ | ⟨h1, h2⟩ <;> rw [h1, h2] <;>
    simp [attrGet, tagNumFmt, tagXf, tagDxfs, attNumFmtId, attFormatCode, attXfId]

/-- The hypotheses of `C103_differential_partial` hold for a differential format of id 165, which changes nothing. -/
example : StylesComplete (exDxfStyles ['1', '6', '5'] ['0', '.', '0', '0', '%']) ∧
    insideDxfs false (exDxfStyles ['1', '6', '5'] ['0', '.', '0', '0', '%']) =
      [.start ['d', 'x', 'f'] [], .start tagNumFmt [(attNumFmtId, ['1', '6', '5']), (attFormatCode, ['0', '.', '0', '0', '%'])],
        .close tagNumFmt, .close ['d', 'x', 'f']] ∧
    cellFmts (exDxfStyles ['1', '6', '5'] ['0', '.', '0', '0', '%']) = [['0'], ['1', '4'], ['2']] ∧
    xlsxStyles exInt ⟨exDxfStyles ['1', '6', '5'] ['0', '.', '0', '0', '%'], false⟩ =
      xlsxStyles exInt ⟨outsideDxfs false (exDxfStyles ['1', '6', '5'] ['0', '.', '0', '0', '%']), false⟩ ∧
    outsideDxfs false (exDxfStyles ['1', '6', '5'] ['0', '.', '0', '0', '%']) = exTStyles :=
  ⟨exDxfStyles_complete _ _, by decide +kernel, by decide +kernel, by decide +kernel, by decide +kernel⟩

/-- Repeated ids: the last code counts. -/
example : codeOf [(['1'], ['a']), (['2'], ['b']), (['1'], ['c'])] ['1'] = some ['c'] ∧
    classWith (some ['y', 'y']) ['9', '9'] 99 = .temporal ∧ classWith none ['9', '9'] 99 = .other := by decide +kernel

/-- Two XLSB style parts, one with an additional `BrtDXF` record (507, by the reader numbered 0x3fb, its two bytes). -/
example : scanBiff none [47, 0, 0xfb, 3, 1, 7] = [⟨47, []⟩, ⟨0x3fb, [7]⟩] ∧
    (scanBiff none [47, 0, 0xfb, 3, 1, 7]).filter (fun r => r.recId = 44 ∨ r.recId = 47) =
      (scanBiff none [47, 0]).filter (fun r => r.recId = 44 ∨ r.recId = 47) := by decide +kernel

/-- C103, finding: the format of a percentage column of a table, which has the number 14 among the differential formats
but not among those of the cells, makes the dates of the file (built-in format 14) numbers: a file whose second column is
a date is read with 45292 there. -/
theorem C103_finding : let es := exDxfStyles ['1', '4'] ['0', '.', '0', '0', '%']
    outsideDxfs false es = exTStyles ∧
    xlsxStyles exInt ⟨exTStyles, false⟩ = .ok [(['2'], 0x20), (['1'], 0x24)] ∧
    xlsxStyles exInt ⟨es, false⟩ = .ok [(['1'], 0x20), (['2'], 0x20), (['1'], 0x24)] ∧
    exReadX {} = .ok [.arr ⟨.utf8, [some (.str ['y', 'z']), none, none, some (.str ['1'])]⟩,
      .arr ⟨.ts, [none, none, none, some (.ts 1704067200000)]⟩,
      .arr ⟨.utf8, [some (.str ['q']), none, none, some (.str ['x'])]⟩] ∧
    (readXlsx demoEnv exLib (fun _ => none) (fun _ _ => .ok false) exInt (fun s => s == ['-']) exConcat {} {}
      { exXlsxFile with styles := some ⟨es, false⟩ }).map (·.arrays) =
      .ok [.arr ⟨.utf8, [some (.str ['y', 'z']), none, none, some (.str ['1'])]⟩,
        .arr ⟨.i8, [none, none, none, some (.i8 45292)]⟩,
        .arr ⟨.utf8, [some (.str ['q']), none, none, some (.str ['x'])]⟩] := by
  decide +kernel

end Rxls
