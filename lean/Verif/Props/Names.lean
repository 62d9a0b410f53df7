import Verif.Spec.Opc
import Verif.Spec.Date1904
import Verif.Model.BiffEnum
import Verif.Props.Casts
import Verif.Props.EndToEndXlsx
import Verif.Props.XlsbParts

/-! # Properties C76 to C78: part names, element names, date system -/

namespace Rxls

/-! ## C76 -/

theorem dictSet_mem {κ α : Type} [DecidableEq κ] {d : List (κ × α)} {k : κ} {v : α} {p : κ × α}
    (h : p ∈ dictSet d k v) : p ∈ d ∨ p = (k, v) := by
  unfold dictSet at h
  split at h
  · obtain ⟨q, hq, he⟩ := List.mem_map.mp h
    split at he
    · exact .inr he.symm
    · exact .inl (he ▸ hq)
  · rcases List.mem_append.mp h with h | h
    · exact .inl h
    · exact .inr (by simpa using h)

theorem selectSheet_mem {sheets : List (Str × Str)} {a : SheetArg} {path : Str}
    (h : selectSheet sheets a = .ok path) : ∃ p ∈ sheets, p.2 = path := by
  cases a with
  | index i =>
    simp only [selectSheet] at h
    split at h
    · cases hg : sheets[i.toNat]? with
      | none => rw [hg] at h; cases h
      | some p => rw [hg] at h; cases h; exact ⟨p, List.mem_of_getElem? hg, rfl⟩
    · cases h
  | name s =>
    simp only [selectSheet] at h
    cases hg : sheets.find? (fun p => p.1 = s) with
    | none => rw [hg] at h; cases h
    | some p => rw [hg] at h; cases h; exact ⟨p, List.mem_of_find?_eq_some hg, rfl⟩

/-- The part names of the sheets of an XLSB file come from targets. -/
theorem xlsbSheetsFrom_paths {rels : List Relationship} {rs : List Record} {d sheets : List (Str × Str)}
    (hd : ∀ p ∈ d, ∃ r ∈ rels, p.2 = xlPrefix ++ r.target) (h : xlsbSheetsFrom rels d rs = .ok sheets) :
    ∀ p ∈ sheets, ∃ r ∈ rels, p.2 = xlPrefix ++ r.target := by
  induction rs generalizing d with
  | nil => cases h; exact hd
  | cons r rs ih =>
    unfold xlsbSheetsFrom at h
    split at h
    · cases h
    · split at h
      · cases h
      · next x hx =>
        refine ih ?_ h
        intro p hp
        rcases dictSet_mem hp with hp | rfl
        · exact hd p hp
        · exact ⟨x, List.mem_of_find?_eq_some hx, rfl⟩

theorem worksheetFiles_paths (rels : List Relationship) :
    ∀ p ∈ worksheetFiles rels, ∃ r ∈ rels, r.type = worksheetType ∧ p.2 = xlPrefix ++ r.target := by
  have key : ∀ (l : List Relationship) (d : List (Str × Str)),
      (∀ p ∈ d, ∃ r ∈ rels, r.type = worksheetType ∧ p.2 = xlPrefix ++ r.target) → (∀ r ∈ l, r ∈ rels) →
      ∀ p ∈ l.foldl (fun d r => if r.type = worksheetType then dictSet d r.id (xlPrefix ++ r.target) else d) d,
        ∃ r ∈ rels, r.type = worksheetType ∧ p.2 = xlPrefix ++ r.target := by
    intro l
    induction l with
    | nil => intro d hd _; exact hd
    | cons r l ih =>
      intro d hd hl
      refine ih _ ?_ (fun x hx => hl x (List.mem_cons_of_mem _ hx))
      intro p hp
      simp only at hp
      split at hp
      · next ht =>
        rcases dictSet_mem hp with hp | rfl
        · exact hd p hp
        · exact ⟨r, hl r (List.mem_cons_self ..), ht, rfl⟩
      · exact hd p hp
  exact key rels [] (by simp) (fun _ h => h)

/-- The part names of the sheets of an XLSX file come from the targets of worksheets. -/
theorem xlsxSheets_paths {rels : List Relationship} {wb : XmlDoc} {sheets : List (Str × Str)}
    (h : xlsxSheets rels wb = .ok sheets) :
    ∀ p ∈ sheets, ∃ r ∈ rels, r.type = worksheetType ∧ p.2 = xlPrefix ++ r.target := by
  have key : ∀ (l d : List (Str × Str)), (∀ p ∈ d, ∃ r ∈ rels, r.type = worksheetType ∧ p.2 = xlPrefix ++ r.target) →
      joinSheets (worksheetFiles rels) d l = .ok sheets →
      ∀ p ∈ sheets, ∃ r ∈ rels, r.type = worksheetType ∧ p.2 = xlPrefix ++ r.target := by
    intro l
    induction l with
    | nil => intro d hd h; cases h; exact hd
    | cons x l ih =>
      intro d hd h
      obtain ⟨rid, name⟩ := x
      unfold joinSheets at h
      split at h
      · cases h
      · next q hq =>
        refine ih _ ?_ h
        intro p hp
        rcases dictSet_mem hp with hp | rfl
        · exact hd p hp
        · exact worksheetFiles_paths rels q (List.mem_of_find?_eq_some hq)
  unfold xlsxSheets at h
  split at h
  · cases h
  · split at h
    · cases h
    · exact key _ [] (by simp) h

theorem slashSegments_ne (s : Str) : slashSegments s ≠ [] := by
  cases s with
  | nil => simp [slashSegments]
  | cons c s =>
    unfold slashSegments
    split
    · simp
    · split <;> simp

theorem joinSegments_cons (g : Str) {gs : List Str} (h : gs ≠ []) :
    joinSegments (g :: gs) = g ++ '/' :: joinSegments gs := by
  cases gs with
  | nil => exact absurd rfl h
  | cons => rfl

theorem joinSegments_slash (s : Str) : joinSegments (slashSegments s) = s := by
  induction s with
  | nil => rfl
  | cons c s ih =>
    unfold slashSegments
    split
    · next h => rw [joinSegments_cons _ (slashSegments_ne s), ih, h]; rfl
    · cases hs : slashSegments s with
      | nil => exact absurd hs (slashSegments_ne s)
      | cons g gs =>
        rw [hs] at ih
        rw [← ih]
        cases gs <;> simp [joinSegments]

theorem followSegments_plain (gs dir : List Str) (h1 : ['.'] ∉ gs) (h2 : ['.', '.'] ∉ gs) :
    followSegments dir gs = dir ++ gs := by
  induction gs generalizing dir with
  | nil => simp [followSegments]
  | cons g gs ih =>
    simp only [List.mem_cons, not_or] at h1 h2
    unfold followSegments
    rw [if_neg (Ne.symm h1.1), if_neg (Ne.symm h2.1), ih _ h1.2 h2.2, List.append_assoc]
    rfl

theorem targetPart_plain (s : Str) (h : PlainTarget s) : targetPart s = xlPrefix ++ s := by
  have : targetPart s = joinSegments (followSegments [['x', 'l']] (slashSegments s)) := by
    unfold targetPart
    split
    · exact absurd rfl h.1
    · rfl
  rw [this, followSegments_plain _ _ h.2.1 h.2.2, List.singleton_append, joinSegments_cons _ (slashSegments_ne s),
    joinSegments_slash]
  rfl

/-- C76, partial: when the targets are relative and have no `.` or `..` segments, the sheets of a workbook are the parts
its relationships name.  Missing: other targets, where this is false (`C76_absolute_targets`, `C76_dot_segments`). -/
theorem C76_relative_targets_partial (rels : List Relationship) (tgt : Str → Str) :
    (∀ es, SheetsComplete es → (rels.map (·.id)).Nodup → ((sheetEntries es).map (·.1)).Nodup →
      ((sheetEntries es).map (·.2)).Nodup →
      (∀ e ∈ sheetEntries es, ⟨e.1, worksheetType, tgt e.1⟩ ∈ rels ∧ PlainTarget (tgt e.1)) →
      xlsxSheets rels ⟨es, false⟩ = .ok ((sheetEntries es).map fun e => (e.2, targetPart (tgt e.1)))) ∧
    (∀ (workbook : Bytes) (es : List SheetEntry), scanBiff (some [412]) workbook = es.map SheetEntry.record → (∀ e ∈ es, e.Fits) →
      (∀ e ∈ es, (rels.find? fun x => x.id = e.rel).map (·.target) = some (tgt e.rel) ∧ PlainTarget (tgt e.rel)) →
      (es.map (·.name)).Nodup →
      xlsbSheets rels workbook = .ok (es.map fun e => (e.name, targetPart (tgt e.rel)))) := by
  constructor
  · intro es h hr hid hname ht
    rw [C52_xlsx_sheets rels es h tgt hr hid hname fun e he => (ht e he).1]
    congr 1
    exact List.map_congr_left fun e he => by rw [targetPart_plain _ (ht e he).2]
  · intro workbook es hw hf ht hn
    rw [C52_xlsb_sheets rels workbook es tgt hw hf (fun e he => (ht e he).1) hn]
    congr 1
    exact List.map_congr_left fun e he => by rw [targetPart_plain _ (ht e he).2]

/-- Length of the segments with a separator each. -/
def segsLength (gs : List Str) : Nat := (gs.map fun g => g.length + 1).sum

theorem joinSegments_length (gs : List Str) : (joinSegments gs).length = segsLength gs - 1 := by
  induction gs with
  | nil => rfl
  | cons g gs ih =>
    cases gs with
    | nil => simp [joinSegments, segsLength]
    | cons h gs =>
      rw [joinSegments_cons g (by simp), List.length_append, List.length_cons, ih]
      simp [segsLength]; omega

theorem segsLength_slash (s : Str) : segsLength (slashSegments s) = s.length + 1 := by
  have h := joinSegments_length (slashSegments s)
  rw [joinSegments_slash] at h
  cases hs : slashSegments s with
  | nil => exact absurd hs (slashSegments_ne s)
  | cons g gs =>
    rw [hs] at h
    have : 1 ≤ segsLength (g :: gs) := by simp [segsLength]; omega
    omega

theorem followSegments_length (gs dir : List Str) :
    segsLength (followSegments dir gs) ≤ segsLength dir + segsLength gs ∧
    ((['.'] ∈ gs ∨ ['.', '.'] ∈ gs) → segsLength (followSegments dir gs) < segsLength dir + segsLength gs) := by
  induction gs generalizing dir with
  | nil => simp [followSegments, segsLength]
  | cons g gs ih =>
    have hc : segsLength (g :: gs) = g.length + 1 + segsLength gs := by simp [segsLength]
    unfold followSegments
    split
    · have := (ih dir).1
      rw [hc]
      exact ⟨by omega, fun _ => by omega⟩
    · split
      · have h1 := (ih dir.dropLast).1
        have h2 : segsLength dir.dropLast ≤ segsLength dir := by
          rcases List.eq_nil_or_concat dir with rfl | ⟨l, a, rfl⟩
          · simp
          · simp [segsLength]
        rw [hc]
        exact ⟨by omega, fun _ => by omega⟩
      · next h1 h2 =>
        have hd : segsLength (dir ++ [g]) = segsLength dir + (g.length + 1) := by simp [segsLength]
        obtain ⟨k1, k2⟩ := ih (dir ++ [g])
        rw [hd] at k1 k2
        rw [hc]
        refine ⟨by omega, ?_⟩
        intro h
        have : ['.'] ∈ gs ∨ ['.', '.'] ∈ gs := by
          rcases h with h | h
          · rcases List.mem_cons.1 h with h | h
            · exact absurd h.symm h1
            · exact .inl h
          · rcases List.mem_cons.1 h with h | h
            · exact absurd h.symm h2
            · exact .inr h
        have := k2 this
        omega

/-- The path the reader opens is the part the target names exactly for plain targets. -/
theorem targetPart_iff (s : Str) : targetPart s = xlPrefix ++ s ↔ PlainTarget s := by
  refine ⟨fun h => ?_, targetPart_plain s⟩
  have hx : xlPrefix.length = 3 := rfl
  by_cases ha : s.head? = some '/'
  · cases s with
    | nil => cases ha
    | cons c s =>
      cases ha
      have hl := congrArg List.length h
      have h1 : targetPart ('/' :: s) = joinSegments (followSegments [] (slashSegments s)) := rfl
      have h2 := (followSegments_length (slashSegments s) []).1
      rw [segsLength_slash] at h2
      have h0 : segsLength [] = 0 := rfl
      rw [h1, joinSegments_length, List.length_append, List.length_cons] at hl
      omega
  · refine ⟨ha, ?_⟩
    by_contra hd
    have h1 : targetPart s = joinSegments (followSegments [['x', 'l']] (slashSegments s)) := by
      unfold targetPart
      split
      · exact absurd rfl ha
      · rfl
    have h2 := (followSegments_length (slashSegments s) [['x', 'l']]).2 (by
      by_contra hn
      rw [not_or] at hn
      exact hd hn)
    have h0 : segsLength [['x', 'l']] = 3 := rfl
    have hl := congrArg List.length h
    rw [segsLength_slash] at h2
    rw [h1, joinSegments_length, List.length_append] at hl
    omega

/-- C76, exactly: the paths of the sheets are the parts the relationships name if and only if every target used is
relative and free of `.` and `..`. -/
theorem C76_exact (rels : List Relationship) (tgt : Str → Str) :
    (∀ es, SheetsComplete es → (rels.map (·.id)).Nodup → ((sheetEntries es).map (·.1)).Nodup →
      ((sheetEntries es).map (·.2)).Nodup → (∀ e ∈ sheetEntries es, ⟨e.1, worksheetType, tgt e.1⟩ ∈ rels) →
      (xlsxSheets rels ⟨es, false⟩ = .ok ((sheetEntries es).map fun e => (e.2, targetPart (tgt e.1))) ↔
        ∀ e ∈ sheetEntries es, PlainTarget (tgt e.1))) ∧
    (∀ (workbook : Bytes) (es : List SheetEntry), scanBiff (some [412]) workbook = es.map SheetEntry.record →
      (∀ e ∈ es, e.Fits) → (∀ e ∈ es, (rels.find? fun x => x.id = e.rel).map (·.target) = some (tgt e.rel)) →
      (es.map (·.name)).Nodup →
      (xlsbSheets rels workbook = .ok (es.map fun e => (e.name, targetPart (tgt e.rel))) ↔
        ∀ e ∈ es, PlainTarget (tgt e.rel))) := by
  constructor
  · intro es h hr hid hname ht
    rw [C52_xlsx_sheets rels es h tgt hr hid hname ht, Except.ok.injEq, List.map_inj_left]
    exact forall₂_congr fun e _ => by
      rw [← targetPart_iff, Prod.mk.injEq]
      exact ⟨fun h => h.2.symm, fun h => ⟨rfl, h.symm⟩⟩
  · intro workbook es hw hf ht hn
    rw [C52_xlsb_sheets rels workbook es tgt hw hf ht hn, Except.ok.injEq, List.map_inj_left]
    exact forall₂_congr fun e _ => by
      rw [← targetPart_iff, Prod.mk.injEq]
      exact ⟨fun h => h.2.symm, fun h => ⟨rfl, h.symm⟩⟩

example : targetPart "worksheets/sheet1.xml".toList = "xl/worksheets/sheet1.xml".toList ∧
    targetPart "/xl/worksheets/sheet1.xml".toList = "xl/worksheets/sheet1.xml".toList ∧
    targetPart "../data/./s.bin".toList = "data/s.bin".toList ∧
    PlainTarget "worksheets/sheet1.xml".toList := by
  refine ⟨by decide +kernel, by decide +kernel, by decide +kernel, ?_⟩
  unfold PlainTarget
  decide +kernel

/-- Finding, C76 fails: no file whose targets are absolute (`/xl/worksheets/sheet1.xml`, as some writers put them) can
be read, in either format: the part asked for is `xl//xl/...`, and no part name has two slashes in a row. -/
theorem C76_absolute_targets {A D : Type} (env : Env) (lib : Lib A D) (search : Str → Option (Str → Bool))
    (reMatch : Str → Str → Py Bool) (toInt : Str → Option Int) (isNull : Str → Bool) (o : ConcatOpts) (ia : IterArgs)
    (args : ReadArgs D) (t : Table A) :
    (∀ f : XlsxFile, (∀ r ∈ f.rels, r.type = worksheetType → r.target.head? = some '/') →
      (∀ a b, f.parts (a ++ '/' :: '/' :: b) = none) →
      readXlsx env lib search reMatch toInt isNull o ia args f ≠ .ok t) ∧
    (∀ f : XlsbFile, (∀ r ∈ f.rels, r.target.head? = some '/') → (∀ a b, f.parts (a ++ '/' :: '/' :: b) = none) →
      readXlsb env lib search reMatch isNull o ia args f ≠ .ok t) := by
  have none : ∀ {α : Type} (parts : Str → Option α) (tg : Str), tg.head? = some '/' →
      (∀ a b, parts (a ++ '/' :: '/' :: b) = none) → parts (xlPrefix ++ tg) = none := by
    intro α parts tg ht hp
    cases tg with
    | nil => cases ht
    | cons c tg =>
      cases ht
      exact hp ['x', 'l'] tg
  constructor
  · intro f hr hp h
    unfold readXlsx at h
    split at h
    · cases h
    next sheets hs =>
    split at h
    · cases h
    next path hpath =>
    split at h
    · cases h
    split at h
    · cases h
    next part hpart =>
    obtain ⟨p, hm, rfl⟩ := selectSheet_mem hpath
    obtain ⟨r, hr1, hr2, he⟩ := xlsxSheets_paths hs p hm
    rw [he, none f.parts r.target (hr r hr1 hr2) hp] at hpart
    cases hpart
  · intro f hr hp h
    unfold readXlsb at h
    split at h
    · cases h
    next sheets hs =>
    split at h
    · cases h
    next path hpath =>
    split at h
    · cases h
    split at h
    · cases h
    next part hpart =>
    obtain ⟨p, hm, rfl⟩ := selectSheet_mem hpath
    obtain ⟨r, hr1, he⟩ := xlsbSheetsFrom_paths (by simp) hs p hm
    rw [he, none f.parts r.target (hr r hr1) hp] at hpart
    cases hpart

/-- The finding on concrete files, whose tables are read when the target is relative. -/
theorem C76_absolute_targets_example :
    (readXlsx demoEnv exLib (fun _ => none) (fun _ _ => .ok false) exInt (fun s => s == ['-']) exConcat
      { skipCols := [0, 2] } {}
      { exXlsxFile with rels := exXlsxFile.rels.map fun r => { r with target := "/xl/".toList ++ r.target } }).map
        (·.arrays) = .error .keyError ∧
    exReadX { skipCols := [0, 2] } = .ok [.arr ⟨.ts, [some (.ts 1704067200000)]⟩] ∧
    (readXlsb demoEnv exLib (fun _ => none) (fun _ _ => .ok false) (fun s => s == ['-']) exConcat
      { skipCols := [0, 2] } {}
      { exFile with rels := exFile.rels.map fun r => { r with target := "/xl/".toList ++ r.target } }).map
        (·.arrays) = .error .keyError ∧
    exReadB { skipCols := [0, 2] } = .ok [.arr ⟨.ts, [some (.ts 1704067200000)]⟩] ∧
    (∀ r ∈ exFile.rels, targetPart ("/xl/".toList ++ r.target) = targetPart r.target) := by
  decide +kernel

/-- Finding, C76 fails: dot segments are not followed. -/
theorem C76_dot_segments :
    (readXlsx demoEnv exLib (fun _ => none) (fun _ _ => .ok false) exInt (fun s => s == ['-']) exConcat
      { skipCols := [0, 2] } {}
      { exXlsxFile with rels := exXlsxFile.rels.map fun r => { r with target := "../xl/".toList ++ r.target } }).map
        (·.arrays) = .error .keyError ∧
    (∀ r ∈ exXlsxFile.rels, targetPart ("../xl/".toList ++ r.target) = targetPart r.target) := by
  decide +kernel

/-! ## C77 -/

/-- What `xlsxStart` looks at. -/
theorem xlsxType_congr {styles : List (Str × Nat)} {a a' : List (Str × Str)}
    (h : ∀ k ∈ knownAttrs, attrGet a k = attrGet a' k) : xlsxType styles a = xlsxType styles a' := by
  unfold xlsxType
  rw [h attT (by decide), h attS (by decide)]

theorem attrAt_congr {a a' : List (Str × Str)} (h : ∀ k ∈ knownAttrs, attrGet a k = attrGet a' k) {k : Str}
    (hk : k ∈ knownAttrs) : attrAt a k = attrAt a' k := by
  unfold attrAt
  rw [h k hk]

/-- Same state up to the name of an open element that is not known. -/
structure XlsxState.Alike (s s' : XlsxState) : Prop where
  eq : s' = { s with lTag := s'.lTag }
  tag : s.lTag = s'.lTag ∨ ∃ t t', s.lTag = some t ∧ s'.lTag = some t' ∧ t ∉ knownTags ∧ t' ∉ knownTags

theorem XlsxState.Alike.refl (s : XlsxState) : s.Alike s := ⟨rfl, .inl rfl⟩

theorem runXlsx_alike (styles : List (Str × Nat)) (isNull : Str → Bool) (o : SheetArgs) (bad : Bool)
    {es es' : List Xml} (h : List.Forall₂ Xml.Alike es es') :
    ∀ {st st' : XlsxState}, st.Alike st' → runXlsx styles isNull o bad es st = runXlsx styles isNull o bad es' st' := by
  induction h with
  | nil => intros; rfl
  | cons he h ih =>
    intro st st' hs
    obtain ⟨row, empty, cRow, cTyp, lCol, lTag, take⟩ := st
    obtain ⟨row', empty', cRow', cTyp', lCol', lTag', take'⟩ := st'
    obtain ⟨heq, htag⟩ := hs
    simp only [XlsxState.mk.injEq, true_and, and_true] at heq
    obtain ⟨rfl, rfl, rfl, rfl, rfl, rfl⟩ := heq
    simp only at htag
    cases he with
    | start t a a' ha =>
      unfold runXlsx xlsxStart
      rcases htag with rfl | ⟨u, u', rfl, rfl, -, -⟩
      · cases lTag with
        | some u => exact ih (.refl _)
        | none =>
          simp only [attrAt_congr ha (show attR ∈ knownAttrs by decide), xlsxType_congr ha]
          by_cases hc : t = tagC ∧ o.skipRows ≤ row'
          · rw [if_pos hc]
            cases attrAt a' attR with
            | error e => rfl
            | ok r => exact ih (.refl _)
          · rw [if_neg hc]
            exact ih (.refl _)
      · exact ih (.refl _)
    | other t t' a a' ht ht' =>
      have hc : ∀ {t : Str}, t ∉ knownTags → t ≠ tagC := fun h e => h (by rw [e]; decide)
      unfold runXlsx xlsxStart
      rcases htag with rfl | ⟨u, u', rfl, rfl, -, -⟩
      · cases lTag with
        | some u => exact ih ⟨rfl, .inr ⟨t, t', rfl, rfl, ht, ht'⟩⟩
        | none =>
          simp only [hc ht, hc ht', false_and, if_false]
          exact ih (.refl _)
      · exact ih ⟨rfl, .inr ⟨t, t', rfl, rfl, ht, ht'⟩⟩
    | text s =>
      have hv : ∀ {t : Str}, t ∉ knownTags → t ≠ tagV := fun h e => h (by rw [e]; decide)
      unfold runXlsx xlsxText
      rcases htag with rfl | ⟨u, u', rfl, rfl, hu, hu'⟩
      · simp only
        rw [ih]
        exact ⟨rfl, .inl rfl⟩
      · simp only [Option.some.injEq, hv hu, hv hu', false_and, if_false, ite_self]
        rw [ih]
        exact ⟨rfl, .inr ⟨u, u', rfl, rfl, hu, hu'⟩⟩
    | close t =>
      have hrow := fun x y => ih (st := ⟨x, empty', cRow', cTyp', lCol', lTag, y⟩)
        (st' := ⟨x, empty', cRow', cTyp', lCol', lTag', y⟩) ⟨rfl, htag⟩
      have hcell := ih (st := ⟨row', empty', cRow', 0, lCol', none, take'⟩)
        (st' := ⟨row', empty', cRow', 0, lCol', none, take'⟩) ⟨rfl, .inl rfl⟩
      unfold runXlsx xlsxEnd
      by_cases hr : t = tagRow
      · simp only [hr, if_true, hrow]
      · by_cases hc : t = tagC
        · subst hc
          simp only [hr, if_true, if_false, hcell]
        · simp only [hr, hc, if_false, hrow]
    | closeOther t t' ht ht' =>
      have hc : ∀ {t : Str}, t ∉ knownTags → t ≠ tagC := fun h e => h (by rw [e]; decide)
      have hr : ∀ {t : Str}, t ∉ knownTags → t ≠ tagRow := fun h e => h (by rw [e]; decide)
      unfold runXlsx xlsxEnd
      simp only [hc ht, hc ht', hr ht, hr ht', if_false, Bool.false_eq_true]
      rw [ih]
      exact ⟨rfl, htag⟩

theorem xlsxSheet_alike (styles : List (Str × Nat)) (isNull : Str → Bool) (o : SheetArgs) {d d' : XmlDoc}
    (h : d.Alike d') : xlsxSheet styles isNull o d = xlsxSheet styles isNull o d' := by
  unfold xlsxSheet
  rw [runXlsx_alike styles isNull o _ h.1 (.refl _), h.2]

theorem sheetNames_alike {es es' : List Xml} (h : List.Forall₂ Xml.Alike es es') (d : List (Str × Str)) :
    sheetNames d es = sheetNames d es' := by
  induction h generalizing d with
  | nil => rfl
  | cons he h ih =>
    cases he with
    | start t a a' ha =>
      unfold sheetNames
      rw [attrAt_congr ha (show attName ∈ knownAttrs by decide), attrAt_congr ha (show attRId ∈ knownAttrs by decide)]
      simp only [ih]
    | other t t' a a' ht ht' =>
      have hc : ∀ {t : Str}, t ∉ knownTags → t ≠ tagSheet := fun h e => h (by rw [e]; decide)
      unfold sheetNames
      simp only [hc ht, hc ht', if_false, ih]
    | text s => unfold sheetNames; exact ih d
    | close t => unfold sheetNames; exact ih d
    | closeOther t t' => unfold sheetNames; exact ih d

theorem sharedXml_alike (isNull : Str → Bool) {es es' : List Xml} (h : List.Forall₂ Xml.Alike es es') (n : Nat)
    (must : Bool) : sharedXml isNull n must es = sharedXml isNull n must es' := by
  have hc : ∀ {t : Str}, t ∉ knownTags → t ≠ tagSi := fun h e => h (by rw [e]; decide)
  induction h generalizing n must with
  | nil => rfl
  | cons he h ih =>
    cases he with
    | start t a a' ha => unfold sharedXml; exact ih ..
    | other t t' a a' ht ht' =>
      unfold sharedXml
      simp only [hc ht, hc ht', ih]
    | text s => unfold sharedXml; simp only [ih]
    | close t => unfold sharedXml; simp only [ih]
    | closeOther t t' ht ht' =>
      unfold sharedXml
      simp only [hc ht, hc ht', false_and, if_false, ih]

theorem stylesXml_alike {es es' : List Xml} (h : List.Forall₂ Xml.Alike es es') (fms : List (Str × Str))
    (xfs : List Str) : stylesXml fms xfs es = stylesXml fms xfs es' := by
  have hc : ∀ {t : Str}, t ∉ knownTags → t ≠ tagNumFmt := fun h e => h (by rw [e]; decide)
  have hx : ∀ {t : Str}, t ∉ knownTags → t ≠ tagXf := fun h e => h (by rw [e]; decide)
  induction h generalizing fms xfs with
  | nil => rfl
  | cons he h ih =>
    cases he with
    | start t a a' ha =>
      unfold stylesXml
      rw [attrAt_congr ha (show attFormatCode ∈ knownAttrs by decide),
        attrAt_congr ha (show attNumFmtId ∈ knownAttrs by decide), ha attXfId (by decide)]
      simp only [ih]
    | other t t' a a' ht ht' =>
      unfold stylesXml
      simp only [hc ht, hc ht', hx ht, hx ht', false_and, if_false, ih]
    | text s => unfold stylesXml; exact ih ..
    | close t => unfold stylesXml; exact ih ..
    | closeOther t t' => unfold stylesXml; exact ih ..

/-- Packages whose parts differ only in what XLSX reading is not about. -/
structure XlsxFile.Alike (f f' : XlsxFile) : Prop where
  rels : f.rels = f'.rels
  workbook : f.workbook.Alike f'.workbook
  shared : Option.Rel XmlDoc.Alike f.shared f'.shared
  styles : Option.Rel XmlDoc.Alike f.styles f'.styles
  parts : ∀ path, Option.Rel XmlDoc.Alike (f.parts path) (f'.parts path)

/-- C77, partial: the table does not depend on elements and attributes that reading is not about, wherever they stand,
nor on the order of attributes.  Missing: namespace prefixes of the elements it is about, where the property is false
(`C77_prefixed_elements`). -/
theorem C77_other_markup_partial {A D : Type} (env : Env) (lib : Lib A D) (search : Str → Option (Str → Bool))
    (reMatch : Str → Str → Py Bool) (toInt : Str → Option Int) (isNull : Str → Bool) (o : ConcatOpts) (ia : IterArgs)
    (args : ReadArgs D) (f f' : XlsxFile) (h : f.Alike f') :
    readXlsx env lib search reMatch toInt isNull o ia args f =
      readXlsx env lib search reMatch toInt isNull o ia args f' := by
  have hsheets : xlsxSheets f.rels f.workbook = xlsxSheets f'.rels f'.workbook := by
    unfold xlsxSheets
    rw [h.rels, sheetNames_alike h.workbook.1, h.workbook.2]
  have hstyles : f.formats toInt = f'.formats toInt := by
    unfold XlsxFile.formats
    have := h.styles
    generalize f.styles = a at this ⊢
    generalize f'.styles = b at this ⊢
    cases this with
    | none => rfl
    | some hd =>
      simp only [openPart, xlsxStyles, stylesXml_alike hd.1, hd.2]
  have hshared : f.strings isNull = f'.strings isNull := by
    unfold XlsxFile.strings
    have := h.shared
    generalize f.shared = a at this ⊢
    generalize f'.shared = b at this ⊢
    cases this with
    | none => rfl
    | some hd =>
      simp only [openPart, xlsxShared, sharedXml_alike isNull hd.1, hd.2]
  unfold readXlsx
  rw [hsheets, hstyles, hshared]
  cases xlsxSheets f'.rels f'.workbook with
  | error e => rfl
  | ok sheets =>
    simp only
    cases selectSheet sheets ia.sheet with
    | error e => rfl
    | ok path =>
      simp only
      cases checkRows ia.skipRows ia.takeRows with
      | error e => rfl
      | ok rows =>
        simp only
        have := h.parts path
        generalize f.parts path = a at this ⊢
        generalize f'.parts path = b at this ⊢
        cases this with
        | none => rfl
        | some hd =>
          simp only [openPart]
          cases f'.formats toInt with
          | error e => rfl
          | ok styles =>
            simp only [xlsxSheet_alike styles isNull _ hd]

/-- C77: within the sheet part, whatever stands outside the cells, except the row tags, may be removed. -/
theorem C77_outside_cells (styles : List (Str × Nat)) (isNull : Str → Bool) (o : SheetArgs) (d : XmlDoc) :
    xlsxSheet styles isNull o ⟨withoutOther false d.events, d.bad⟩ = xlsxSheet styles isNull o d := by
  have key : ∀ (es : List Xml) (b : Bool) (st : XlsxState), (b = false → st.lTag = none) →
      runXlsx styles isNull o d.bad (withoutOther b es) st = runXlsx styles isNull o d.bad es st := by
    intro es
    induction es with
    | nil => intro b st _; cases b <;> rfl
    | cons e es ih =>
      intro b st hb
      cases b with
      | true =>
        simp only [withoutOther]
        cases e with
        | start t a =>
          have h0 : ((Xml.start t a ≠ .close tagC) : Bool) = true := by simp
          rw [h0]
          simp only [runXlsx]
          cases xlsxStart styles o.skipRows st t a with
          | error e => rfl
          | ok st' => exact ih true st' (by simp)
        | text s =>
          have h0 : ((Xml.text s ≠ .close tagC) : Bool) = true := by simp
          rw [h0]
          simp only [runXlsx]
          rw [ih true _ (by simp)]
        | close t =>
          by_cases ht : t = tagC
          · subst ht
            have h0 : ((Xml.close tagC ≠ .close tagC) : Bool) = false := by simp
            have h1 : tagC ≠ tagRow := by decide
            rw [h0]
            simp only [runXlsx]
            rw [ih false _ (fun _ => by simp [xlsxEnd, h1])]
          · have h0 : ((Xml.close t ≠ .close tagC) : Bool) = true := by simp [ht]
            rw [h0]
            simp only [runXlsx]
            rw [ih true _ (by simp)]
      | false =>
        have hl := hb rfl
        cases e with
        | start t a =>
          simp only [withoutOther]
          split
          · simp only [runXlsx]
            cases xlsxStart styles o.skipRows st t a with
            | error e => rfl
            | ok st' => exact ih true st' (by simp)
          · rename_i hc
            have hs : xlsxStart styles o.skipRows st t a = .ok st := by simp [xlsxStart, hl, hc]
            split
            · simp only [runXlsx, hs]
              exact ih false st hb
            · simp only [runXlsx, hs]
              exact ih false st hb
        | text s =>
          have hs : xlsxText isNull o.skipRows o.skipCols st s = (st, []) := by simp [xlsxText, hl]
          simp only [withoutOther, runXlsx, hs, List.nil_append]
          exact ih false st hb
        | close t =>
          simp only [withoutOther]
          split
          · simp only [runXlsx]
            rw [ih false _ (fun _ => by unfold xlsxEnd; split_ifs <;> simp [hl])]
          · rename_i hn
            have hs : xlsxEnd o.keepEmpty st t = (st, [], false) := by
              simp only [not_or] at hn
              simp [xlsxEnd, hn.1, hn.2]
            simp only [runXlsx, hs, List.nil_append, Bool.false_eq_true, if_false]
            exact ih false st hb
  unfold xlsxSheet
  rw [key d.events false _ (fun _ => rfl)]

theorem sheetNames_none {d : List (Str × Str)} {es : List Xml}
    (h : ∀ t a, .start t a ∈ es → t ≠ tagSheet) : sheetNames d es = .ok d := by
  induction es with
  | nil => rfl
  | cons e es ih =>
    have ih := ih fun t a hm => h t a (.tail _ hm)
    cases e with
    | start t a => simp only [sheetNames, if_neg (h t a (.head _)), ih]
    | text s => simpa only [sheetNames] using ih
    | close t => simpa only [sheetNames] using ih

theorem sheetNames_noId {es : List Xml} {attrs : List (Str × Str)} (h : .start tagSheet attrs ∈ es)
    (ha : attrGet attrs attRId = none) {d : List (Str × Str)} : ∀ d', sheetNames d' es ≠ .ok d := by
  induction es with
  | nil => cases h
  | cons e es ih =>
    intro d'
    rcases List.mem_cons.mp h with h' | h'
    · subst h'
      have e : attrAt attrs attRId = .error .keyError := by simp [attrAt, ha]
      simp only [sheetNames, if_true, e]
      simp
    · cases e with
      | start t a =>
        simp only [sheetNames]
        split
        · split
          · exact ih h' _
          · simp
        · exact ih h' _
      | text s => simpa only [sheetNames] using ih h' d'
      | close t => simpa only [sheetNames] using ih h' d'

theorem runXlsx_noCells (styles : List (Str × Nat)) (isNull : Str → Bool) (o : SheetArgs) (bad : Bool) (es : List Xml)
    (h : ∀ t a, .start t a ∈ es → t ≠ tagC) {st : XlsxState} (hl : st.lTag = none) :
    (runXlsx styles isNull o bad es st).1.filterMap Ev.cell? = [] := by
  induction es generalizing st with
  | nil => rfl
  | cons e es ih =>
    have ih := @ih fun t a hm => h t a (.tail _ hm)
    cases e with
    | start t a =>
      have hs : xlsxStart styles o.skipRows st t a = .ok st := by simp [xlsxStart, hl, h t a (.head _)]
      simp only [runXlsx, hs]
      exact ih hl
    | text s =>
      have hs : xlsxText isNull o.skipRows o.skipCols st s = (st, []) := by simp [xlsxText, hl]
      simp only [runXlsx, hs, List.nil_append]
      exact ih hl
    | close t =>
      have h1 : (xlsxEnd o.keepEmpty st t).2.1.filterMap Ev.cell? = [] := by
        unfold xlsxEnd
        split_ifs <;> simp [Ev.cell?]
      have h2 : (xlsxEnd o.keepEmpty st t).1.lTag = none := by
        unfold xlsxEnd
        split_ifs <;> simp [hl]
      simp only [runXlsx]
      split
      · exact h1
      · simp only [List.filterMap_append, h1, List.nil_append]
        exact ih h2

/-- Finding, C77 fails: a workbook part whose elements have a namespace prefix (`x:sheet`) has no sheets for `read`, and
a sheet part whose elements have one has no cells: no table is read.  Neither is one when the relationship
attribute of a sheet has a prefix other than `r`. -/
theorem C77_prefixed_elements {A D : Type} (env : Env) (lib : Lib A D) (search : Str → Option (Str → Bool))
    (reMatch : Str → Str → Py Bool) (toInt : Str → Option Int) (isNull : Str → Bool) (o : ConcatOpts) (ia : IterArgs)
    (args : ReadArgs D) (t : Table A) (f : XlsxFile)
    (h : (∀ tag attrs, .start tag attrs ∈ f.workbook.events → ':' ∈ tag) ∨
      (∃ attrs, .start tagSheet attrs ∈ f.workbook.events ∧ attrGet attrs attRId = none) ∨
      (∀ path doc, f.parts path = some doc → ∀ tag attrs, .start tag attrs ∈ doc.events → ':' ∈ tag)) :
    readXlsx env lib search reMatch toInt isNull o ia args f ≠ .ok t := by
  intro hr
  unfold readXlsx at hr
  split at hr
  · cases hr
  next sheets hs =>
  unfold xlsxSheets at hs
  split at hs
  · cases hs
  next names hn =>
  split at hr
  · cases hr
  next path hp =>
  rcases h with h | ⟨attrs, hm, ha⟩ | h
  · have hnames : names = [] := by
      have := sheetNames_none (d := []) (es := f.workbook.events) (fun t a hm e => by
        have := h t a hm
        rw [e] at this
        exact absurd this (by decide))
      rw [this] at hn
      cases hn
      rfl
    subst hnames
    split at hs
    · cases hs
    · simp only [joinSheets, Except.ok.injEq] at hs
      subst hs
      obtain ⟨p, hm, _⟩ := selectSheet_mem hp
      cases hm
  · exact sheetNames_noId hm ha _ hn
  · split at hr
    · cases hr
    split at hr
    · cases hr
    next doc hd =>
    split at hr
    · cases hr
    next styles _ =>
    have hdoc : f.parts path = some doc := by
      unfold openPart at hd
      split at hd <;> simp_all
    have hc' : ∀ o', (xlsxSheet styles isNull o' doc).1.filterMap Ev.cell? = [] := fun o' => by
      unfold xlsxSheet
      simp only [List.filterMap_cons, Ev.cell?]
      exact runXlsx_noCells styles isNull o' doc.bad doc.events (fun t a hm e => by
        have := h path doc hdoc t a hm
        rw [e] at this
        exact absurd this (by decide)) (st := _) rfl
    simp only [hc', List.isEmpty_nil, if_true] at hr
    cases hr

/-- The prefix `x:` on every element. -/
def prefixed (d : XmlDoc) : XmlDoc :=
  { d with events := d.events.map fun
      | .start t a => .start ('x' :: ':' :: t) a
      | .text s => .text s
      | .close t => .close ('x' :: ':' :: t) }

/-- The finding on a concrete file: the same package with prefixed elements in the workbook part, in the sheet part, in
both, and with another prefix for the relationship attribute. -/
theorem C77_prefixed_elements_example :
    (readXlsx demoEnv exLib (fun _ => none) (fun _ _ => .ok false) exInt (fun s => s == ['-']) exConcat
      { skipCols := [0, 2] } {} { exXlsxFile with workbook := prefixed exXlsxFile.workbook }).map (·.arrays) =
        .error .indexError ∧
    (readXlsx demoEnv exLib (fun _ => none) (fun _ _ => .ok false) exInt (fun s => s == ['-']) exConcat
      { skipCols := [0, 2] } {} { exXlsxFile with parts := fun n => (exXlsxFile.parts n).map prefixed }).map
        (·.arrays) = .error .valueError ∧
    (readXlsx demoEnv exLib (fun _ => none) (fun _ _ => .ok false) exInt (fun s => s == ['-']) exConcat
      { skipCols := [0, 2] } {} { exXlsxFile with workbook := { exXlsxFile.workbook with
        events := [.start tagSheet [(attName, ['A']), ("rel:id".toList, ['r', '1'])], .close tagSheet] } }).map
        (·.arrays) = .error .keyError ∧
    exReadX { skipCols := [0, 2] } = .ok [.arr ⟨.ts, [some (.ts 1704067200000)]⟩] ∧
    (∀ t ∈ knownTags, localName ('x' :: ':' :: t) = localName t) ∧ localName "rel:id".toList = localName attRId := by
  decide +kernel

/-- What `C77_other_markup_partial` allows, on the same file: other elements have another name (here in the shared
strings), attributes are added and reordered. -/
example : XlsxFile.Alike exXlsxFile { exXlsxFile with
      workbook := ⟨[.start tagSheet [("sheetId".toList, ['1']), (attRId, ['r', '1']), (attName, ['A'])], .close tagSheet],
        false⟩ } := by
  have refl : ∀ d : XmlDoc, d.Alike d := fun d =>
    ⟨List.forall₂_same.mpr fun e _ => by cases e <;> constructor; intros; rfl, rfl⟩
  have refl' : ∀ d : Option XmlDoc, Option.Rel XmlDoc.Alike d d := fun d => by
    cases d with
    | none => exact .none
    | some d => exact .some (refl d)
  refine ⟨rfl, ⟨.cons (.start _ _ _ ?_) (.cons (.close _) .nil), rfl⟩, refl' _, refl' _, fun _ => refl' _⟩
  decide +kernel

/-- Removing what stands outside the cells. -/
example : withoutOther false [.start ['d'] [], .text ['x'], .start tagRow [], .start tagC [], .start ['f'] [], .close ['f'],
      .close tagC, .start ['g'] [], .close ['g'], .close tagRow] =
    [.start tagRow [], .start tagC [], .start ['f'] [], .close ['f'], .close tagC, .close tagRow] := by
  decide +kernel

/-! ## C78 -/

/-- Finding, C78 fails: the flag of the 1904 date system changes nothing in what is read from an XLSX file. -/
theorem C78_flag_ignored_xlsx {A D : Type} (env : Env) (lib : Lib A D) (search : Str → Option (Str → Bool))
    (reMatch : Str → Str → Py Bool) (toInt : Str → Option Int) (isNull : Str → Bool) (o : ConcatOpts) (ia : IterArgs)
    (args : ReadArgs D) (f : XlsxFile) :
    readXlsx env lib search reMatch toInt isNull o ia args { f with workbook := markDate1904 f.workbook } =
      readXlsx env lib search reMatch toInt isNull o ia args f := by
  have : xlsxSheets f.rels (markDate1904 f.workbook) = xlsxSheets f.rels f.workbook := by
    have hne : tagWorkbookPr ≠ tagSheet := by decide
    have key : ∀ (es : List Xml) d, sheetNames d (es.map markEvent) = sheetNames d es := by
      intro es
      induction es with
      | nil => intro d; rfl
      | cons e es ih =>
        intro d
        cases e with
        | start t a =>
          by_cases ht : t = tagWorkbookPr
          · subst ht
            simp only [List.map_cons, markEvent, if_true, sheetNames, if_neg hne, ih]
          · simp only [List.map_cons, markEvent, if_neg ht, sheetNames, ih]
        | text s => simp only [List.map_cons, markEvent, sheetNames, ih]
        | close t => simp only [List.map_cons, markEvent, sheetNames, ih]
    unfold xlsxSheets markDate1904
    simp only [key]
  unfold readXlsx
  simp only [this]
  rfl

/-- Finding, C78 fails: the record of workbook properties, whatever it says, changes nothing in what is read from an
XLSB file. -/
theorem C78_flag_ignored_xlsb {A D : Type} (env : Env) (lib : Lib A D) (search : Str → Option (Str → Bool))
    (reMatch : Str → Str → Py Bool) (isNull : Str → Bool) (o : ConcatOpts) (ia : IterArgs)
    (args : ReadArgs D) (f : XlsbFile) (pre post : List Record) (props b b' : Bytes)
    (hb : writeAll (pre ++ ⟨409, props⟩ :: post) [] = .ok b) (hb' : writeAll (pre ++ post) [] = .ok b') :
    biffEnumGet "BrtWbProp" = .ok 409 ∧
    readXlsb env lib search reMatch isNull o ia args { f with workbook := b } =
      readXlsb env lib search reMatch isNull o ia args { f with workbook := b' } := by
  refine ⟨by decide +kernel, ?_⟩
  have key : ∀ rs b, writeAll rs [] = .ok b → scanBiff (some [412]) b = rs.filter (fun r => r.recId = 412) := by
    intro rs b hb
    have := C01_stream_roundtrip_append rs b [] hb
    rw [List.append_nil] at this
    rw [C04_only_filter, this, scanBiff_nil, List.append_nil]
    apply List.filter_congr
    simp
  have : xlsbSheets f.rels b = xlsbSheets f.rels b' := by
    unfold xlsbSheets
    rw [key _ _ hb, key _ _ hb']
    simp
  unfold readXlsb
  simp only [this]
  rfl

/-- C78, partial: in a workbook of the 1900 date system a whole serial is the day Excel shows.  Missing: the 1904 date
system, see the other theorems of C78. -/
theorem C78_1900_system_partial {n : Nat} (h0 : n ≤ 10 ^ 7) {d : Date} (hd : excelDate n = some d) :
    ∃ k : Int, DaysFromEpoch d k ∧ f8ToMsWin (.fin n) = k * 86400000 := C17_whole_serials h0 hd

/-- C78: a serial of the 1904 system, converted as `read` does, is 1462 days before the date it stands for. -/
theorem C78_four_years {n : Nat} (h0 : 60 ≤ n) (h1 : n ≤ 10 ^ 6) :
    ∃ k : Int, DaysFromEpoch (excelDate1904 n) k ∧ f8ToMsWin (.fin n) = (k - 1462) * 86400000 := by
  have hd : excelDate (n + 1462) = some (excelDate1904 n) := by
    unfold excelDate excelDate1904
    rw [if_neg (by omega), if_neg (by omega), show n + 1462 - 61 = n + (365 + (365 + (365 + 306))) by omega]
    simp only [Function.iterate_add_apply]
    have h1 : nextDay^[306] ⟨1900, 3, 1⟩ = ⟨1901, 1, 1⟩ := by decide +kernel
    have h2 : nextDay^[365] ⟨1901, 1, 1⟩ = ⟨1902, 1, 1⟩ := by decide +kernel
    have h3 : nextDay^[365] ⟨1902, 1, 1⟩ = ⟨1903, 1, 1⟩ := by decide +kernel
    have h4 : nextDay^[365] ⟨1903, 1, 1⟩ = ⟨1904, 1, 1⟩ := by decide +kernel
    rw [h1, h2, h3, h4]
  refine ⟨(n : Int) - 24107, ?_, ?_⟩
  · have h2 : (((n + 1462 : Nat) : Int) - 25569) = (n : Int) - 24107 := by omega
    have h3 : 61 ≤ n + 1462 := by omega
    generalize n + 1462 = m at hd h2 h3
    exact h2 ▸ excelDate_late h3 hd
  · have e := f8ToMsWin_int (n := n) (by rw [abs_of_nonneg (by omega)]; omega)
    rw [Int.cast_natCast] at e
    rw [e, if_neg (by omega), if_neg (by omega)]
    ring

example : excelDate1904 366 = ⟨1905, 1, 1⟩ ∧ f8ToMsWin (.fin 366) = -25203 * 86400000 ∧
    excelDate 366 = some ⟨1900, 12, 31⟩ := by decide +kernel

end Rxls
