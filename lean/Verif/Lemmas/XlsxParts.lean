import Verif.Spec.XlsxParts
import Verif.Lemmas.XlsbParts

/-! # Lemmas about the other parts of an XLSX package -/

namespace Rxls

theorem pyStr_inj {m n : Nat} (h : pyStr m = pyStr n) : m = n := by
  have := congrArg (Nat.ofDigitChars 10 · 0) h
  simpa [pyStr, Nat.ofDigitChars_ten_toDigits] using this

/-! ## Shared strings -/

theorem shared_outside (isNull : Str → Bool) (es rest : List Xml) (h : ∀ e ∈ es, e.noSi) (n : Nat) :
    sharedXml isNull n false (es ++ rest) = sharedXml isNull n false rest := by
  induction es with
  | nil => rfl
  | cons e es ih =>
    have he := h e (by simp)
    have ih := ih fun e he => h e (by simp [he])
    rw [List.cons_append]
    cases e with
    | start t a =>
      have he : t ≠ tagSi := he
      simp only [sharedXml, he, decide_false, Bool.or_self]
      exact ih
    | text s => simpa [sharedXml] using ih
    | close t => simpa [sharedXml] using ih

theorem shared_body (isNull : Str → Bool) (x : Si) (rest : List Xml) (h : ∀ e ∈ x.body, e.noSi) (n : Nat) :
    sharedXml isNull n true (x.body ++ (.close tagSi :: rest)) =
      (x.entry isNull :: (sharedXml isNull (n + 1) false rest).1,
        (if (x.entry isNull).isNone then [pyStr n] else []) ++ (sharedXml isNull (n + 1) false rest).2) := by
  obtain ⟨attrs, body⟩ := x
  simp only at h
  induction body with
  | nil => simp [sharedXml, Si.entry, Si.texts]
  | cons e es ih =>
    have he := h e (by simp)
    have ih := ih fun e he => h e (by simp [he])
    simp only [List.cons_append]
    cases e with
    | start t a =>
      have e1 : Si.entry isNull ⟨attrs, .start t a :: es⟩ = Si.entry isNull ⟨attrs, es⟩ := rfl
      rw [e1, sharedXml, Bool.true_or]
      exact ih
    | close t =>
      have he : t ≠ tagSi := he
      have e1 : Si.entry isNull ⟨attrs, .close t :: es⟩ = Si.entry isNull ⟨attrs, es⟩ := rfl
      rw [e1, sharedXml, if_neg (by simp [he])]
      exact ih
    | text s =>
      have e1 : Si.entry isNull ⟨attrs, .text s :: es⟩ =
          if pyStrip s ≠ [] && !isNull (pyStrip s) then some (pyStrip s) else Si.entry isNull ⟨attrs, es⟩ := by
        simp only [Si.entry, Si.texts, List.filterMap_cons, List.map_cons, List.find?_cons]
        split <;> rename_i h <;> simp only [h, if_true, Bool.false_eq_true, if_false]
      rw [e1, sharedXml]
      by_cases hc : pyStrip s ≠ [] ∧ isNull (pyStrip s) = false
      · rw [if_pos ⟨rfl, hc.1, hc.2⟩, if_pos (by simp [hc.1, hc.2])]
        have := shared_outside isNull es (.close tagSi :: rest) (fun e he => h e (by simp [he])) (n + 1)
        simp only [this]
        simp [sharedXml]
      · rw [if_neg (by simpa using hc), if_neg (by simpa using hc)]
        exact ih

theorem shared_items (isNull : Str → Bool) (items : List Si) (post : List Xml)
    (h : ∀ x ∈ items, ∀ e ∈ x.body, e.noSi) (hp : ∀ e ∈ post, e.noSi) : ∀ n,
    sharedXml isNull n false (items.flatMap Si.events ++ post) =
      (items.map (Si.entry isNull),
        ((items.zipIdx n).filter fun p => (p.1.entry isNull).isNone).map fun p => pyStr p.2) := by
  induction items with
  | nil =>
    intro n
    have := shared_outside isNull post [] hp n
    simpa [sharedXml] using this
  | cons x items ih =>
    intro n
    have e1 : (x :: items).flatMap Si.events ++ post =
        .start tagSi x.attrs :: (x.body ++ (.close tagSi :: (items.flatMap Si.events ++ post))) := by
      simp [Si.events]
    rw [e1, sharedXml]
    simp only [decide_true, Bool.or_true]
    rw [shared_body isNull x _ (h x (by simp)), ih (fun y hy => h y (by simp [hy])) (n + 1)]
    cases hx : x.entry isNull <;> simp [List.zipIdx_cons, hx]

/-! ## Styles -/

theorem dictSet_keys {κ α : Type} [DecidableEq κ] (d : List (κ × α)) (k : κ) (v : α)
    (hk : k ∉ d.map (·.1)) : dictSet d k v = d ++ [(k, v)] := by
  rw [dictSet, if_neg]
  simp only [List.any_eq_true, not_exists, not_and, decide_eq_true_eq]
  intro q hq he
  exact hk (he ▸ List.mem_map_of_mem hq)

theorem stylesXml_events (es : List Xml) (h : StylesComplete es) : ∀ (fms : List (Str × Str)) (xfs : List Str),
    ((fms.map (·.1)) ++ (numFmts es).map (·.1)).Nodup →
    stylesXml fms xfs es =
      .ok (fms ++ (numFmts es).map fun p => (p.1, beforeSemicolon p.2), xfs ++ cellFmts es) := by
  induction es with
  | nil => intro fms xfs _; simp [stylesXml, numFmts, cellFmts]
  | cons e es ih =>
    intro fms xfs hn
    have ih := ih fun t a hm => h t a (by simp [hm])
    cases e with
    | text s => simpa [stylesXml, numFmts, cellFmts] using ih fms xfs (by simpa [numFmts] using hn)
    | close s => simpa [stylesXml, numFmts, cellFmts] using ih fms xfs (by simpa [numFmts] using hn)
    | start t a =>
      obtain ⟨h1, h2⟩ := h t a (by simp)
      rw [stylesXml]
      by_cases ht : t = tagNumFmt
      · obtain ⟨hi, hc⟩ := h1 ht
        obtain ⟨i, hi⟩ := Option.isSome_iff_exists.1 hi
        obtain ⟨c, hc⟩ := Option.isSome_iff_exists.1 hc
        have hxf : t ≠ tagXf := by rw [ht]; decide
        have e1 : numFmts (.start t a :: es) = (i, c) :: numFmts es := by
          simp [numFmts, ht, hi, hc]
        have e2 : cellFmts (.start t a :: es) = cellFmts es := by
          simp [cellFmts, hxf]
        rw [e1] at hn
        rw [if_pos ht, e1, e2]
        simp only [attrAt, hi, hc]
        have hk : i ∉ fms.map (·.1) := by
          intro hm
          rw [List.nodup_append] at hn
          exact hn.2.2 i hm i (by simp) rfl
        rw [dictSet_keys fms i _ hk, ih _ _ (by simpa using hn)]
        simp
      · rw [if_neg ht]
        have e1 : numFmts (.start t a :: es) = numFmts es := by
          simp [numFmts, ht]
        rw [e1] at hn ⊢
        by_cases hx : t = tagXf ∧ (attrGet a attXfId).isSome
        · rw [if_pos hx]
          obtain ⟨i, hi⟩ := Option.isSome_iff_exists.1 (h2 hx.1 hx.2)
          have e2 : cellFmts (.start t a :: es) = i :: cellFmts es := by
            simp only [cellFmts, List.filterMap_cons, if_pos hx, hi]
          rw [e2]
          simp only [attrAt, hi]
          rw [ih _ _ hn]
          simp
        · rw [if_neg hx]
          have e2 : cellFmts (.start t a :: es) = cellFmts es := by
            simp only [cellFmts, List.filterMap_cons, if_neg hx]
          rw [e2, ih _ _ hn]

theorem mem_xfsWith (xfs : List Str) (p : Str → Bool) (i : Nat) (y : Str) (h : xfs[i]? = some y) :
    pyStr i ∈ xfsWith xfs p ↔ p y = true := by
  unfold xfsWith
  rw [List.mem_map]
  constructor
  · rintro ⟨⟨z, j⟩, hm, he⟩
    obtain ⟨h1, h2⟩ := List.mem_filter.1 hm
    have hj := List.mem_zipIdx_iff_getElem?.1 h1
    have : j = i := pyStr_inj he
    subst this
    simp only at hj
    rw [h] at hj
    simp at hj
    rw [hj]
    exact h2
  · intro hp
    exact ⟨(y, i), List.mem_filter.2 ⟨List.mem_zipIdx_iff_getElem?.2 h, hp⟩, rfl⟩

theorem find_map_const (l : List Str) (v : Nat) (k : Str) (rest : List (Str × Nat)) :
    ((l.map fun k => (k, v)) ++ rest).find? (fun p => p.1 = k) =
      if k ∈ l then some (k, v) else rest.find? (fun p => p.1 = k) := by
  induction l with
  | nil => simp
  | cons a l ih =>
    rw [List.map_cons, List.cons_append, List.find?_cons]
    by_cases h : a = k
    · subst h; simp
    · have h' : ¬ k = a := fun e => h e.symm
      simp only [h, decide_false, ih, List.mem_cons, h', false_or]

/-- The class every cell format gets. -/
theorem xlsxStyles_class (toInt : Str → Option Int) (es : List Xml) (h : StylesComplete es)
    (hn : ((numFmts es).map (·.1)).Nodup) (hi : ∀ y ∈ cellFmts es, (toInt y).isSome) :
    ∃ l, xlsxStyles toInt ⟨es, false⟩ = .ok l ∧
      ∀ i y n, (cellFmts es)[i]? = some y → toInt y = some n →
      (l.find? fun p => p.1 = pyStr i).map (·.2) = (classOf (numFmts es) y n).tag := by
  have h0 := stylesXml_events es h [] [] (by simpa using hn)
  simp only [List.nil_append] at h0
  have hany : ((cellFmts es).any fun y => (toInt y).isNone) = false := by
    rw [List.any_eq_false]
    intro y hy
    have := hi y hy
    cases h : toInt y <;> simp_all
  unfold xlsxStyles
  simp only [h0, hany, Bool.false_eq_true, if_false]
  refine ⟨_, rfl, ?_⟩
  intro i y n hiy hyn
  rw [find_map_const]
  have hfind : ∀ (l : List Str) (v : Nat) (k : Str), (l.map fun k => (k, v)).find? (fun p => p.1 = k) =
      if k ∈ l then some (k, v) else none := by
    intro l v k
    have := find_map_const l v k []
    simpa using this
  rw [hfind]
  have hbuilt : ∀ (ids : List Nat), pyStr i ∈ xfsWith (cellFmts es) (builtinFmt toInt ids) ↔ ∃ m ∈ ids, (m : Int) = n := by
    intro ids
    rw [mem_xfsWith _ _ _ _ hiy]
    simp [builtinFmt, hyn]
  have hcust : ∀ (q : Str → Bool), pyStr i ∈ (((numFmts es).map fun p => (p.1, beforeSemicolon p.2)).flatMap fun p =>
        if q p.2 = true then xfsWith (cellFmts es) (fun z => z = p.1) else []) ↔
      ∃ c ∈ numFmts es, c.1 = y ∧ q (beforeSemicolon c.2) = true := by
    intro q
    rw [List.mem_flatMap]
    constructor
    · rintro ⟨p, hp, hm⟩
      obtain ⟨c, hc, rfl⟩ := List.mem_map.1 hp
      simp only at hm
      split at hm
      next hq =>
        rw [mem_xfsWith _ _ _ _ hiy] at hm
        exact ⟨c, hc, (by simpa using hm : y = c.1).symm, hq⟩
      next => simp at hm
    · rintro ⟨c, hc, rfl, hq⟩
      refine ⟨_, List.mem_map.2 ⟨c, hc, rfl⟩, ?_⟩
      simp only [hq, if_true]
      rw [mem_xfsWith _ _ _ _ hiy]
      simp
  have hc1 := hcust fmtNumeric
  have hc2 := hcust fun f => !fmtNumeric f && fmtTemporal f
  simp only [List.mem_append, hbuilt, hc1, hc2]
  have h20 : TYPE_NUMERIC = 0x20 := rfl
  have h24 : TYPE_NUMERIC ||| REPR_TEMPORAL = 0x24 := rfl
  unfold classOf
  by_cases hnum : (∃ c ∈ numFmts es, c.1 = y ∧ fmtNumeric (beforeSemicolon c.2) = true) ∨
      ∃ m ∈ numericStyles, (m : Int) = n
  · rw [if_pos hnum, if_pos hnum]
    rfl
  · rw [if_neg hnum, if_neg hnum]
    have heq : ((∃ c ∈ numFmts es, c.1 = y ∧ (!fmtNumeric (beforeSemicolon c.2) && fmtTemporal (beforeSemicolon c.2)) = true) ∨
        ∃ m ∈ temporalStyles, (m : Int) = n) ↔ ((∃ c ∈ numFmts es, c.1 = y ∧ fmtTemporal (beforeSemicolon c.2) = true) ∨
        ∃ m ∈ temporalStyles, (m : Int) = n) := by
      refine or_congr ⟨?_, ?_⟩ Iff.rfl
      · rintro ⟨c, hc, h1, h2⟩
        simp only [Bool.and_eq_true] at h2
        exact ⟨c, hc, h1, h2.2⟩
      · rintro ⟨c, hc, h1, h2⟩
        refine ⟨c, hc, h1, ?_⟩
        have : fmtNumeric (beforeSemicolon c.2) = false := by
          by_contra hh
          exact hnum (Or.inl ⟨c, hc, h1, by simpa using hh⟩)
        simp [this, h2]
    by_cases ht : (∃ c ∈ numFmts es, c.1 = y ∧ fmtTemporal (beforeSemicolon c.2) = true) ∨
        ∃ m ∈ temporalStyles, (m : Int) = n
    · rw [if_pos ht, if_pos (heq.2 ht)]
      rfl
    · rw [if_neg ht, if_neg (fun hh => ht (heq.1 hh))]
      rfl

/-! ## Sheets -/

theorem sheetNames_events (es : List Xml) (h : SheetsComplete es) : ∀ d : List (Str × Str),
    ((d.map (·.1)) ++ (sheetEntries es).map (·.1)).Nodup →
    sheetNames d es = .ok (d ++ sheetEntries es) := by
  induction es with
  | nil => intro d _; simp [sheetNames, sheetEntries]
  | cons e es ih =>
    intro d hn
    have ih := ih fun t a hm => h t a (by simp [hm])
    cases e with
    | text s => simpa [sheetNames, sheetEntries] using ih d (by simpa [sheetEntries] using hn)
    | close s => simpa [sheetNames, sheetEntries] using ih d (by simpa [sheetEntries] using hn)
    | start t a =>
      rw [sheetNames]
      by_cases ht : t = tagSheet
      · obtain ⟨hi, hc⟩ := h t a (by simp) ht
        obtain ⟨i, hi⟩ := Option.isSome_iff_exists.1 hi
        obtain ⟨c, hc⟩ := Option.isSome_iff_exists.1 hc
        have e1 : sheetEntries (.start t a :: es) = (i, c) :: sheetEntries es := by
          simp [sheetEntries, ht, hi, hc]
        rw [e1] at hn
        rw [if_pos ht, e1]
        simp only [attrAt, hi, hc]
        have hk : i ∉ d.map (·.1) := by
          intro hm
          rw [List.nodup_append] at hn
          exact hn.2.2 i hm i (by simp) rfl
        rw [dictSet_keys d i _ hk, ih _ (by simpa using hn)]
        simp
      · rw [if_neg ht]
        have e1 : sheetEntries (.start t a :: es) = sheetEntries es := by
          simp [sheetEntries, ht]
        rw [e1] at hn ⊢
        exact ih d hn

theorem joinSheets_entries (files : List (Str × Str)) (tgt : Str → Str) (l : List (Str × Str)) :
    ∀ d : List (Str × Str), (∀ e ∈ l, (files.find? fun p => p.1 = e.1).map (·.2) = some (tgt e.1)) →
    ((d.map (·.1)) ++ l.map (·.2)).Nodup →
    joinSheets files d l = .ok (d ++ l.map fun e => (e.2, tgt e.1)) := by
  induction l with
  | nil => intro d _ _; simp [joinSheets]
  | cons e l ih =>
    intro d ht hn
    obtain ⟨rid, name⟩ := e
    have h1 := ht (rid, name) (by simp)
    rw [joinSheets]
    simp only at h1
    cases hf : files.find? fun p => p.1 = rid with
    | none => rw [hf] at h1; simp at h1
    | some p =>
      rw [hf] at h1
      simp only [Option.map_some, Option.some.injEq] at h1
      simp only
      have hk : name ∉ d.map (·.1) := by
        intro hm
        rw [List.nodup_append] at hn
        exact hn.2.2 name hm name (by simp) rfl
      rw [dictSet_keys d name _ hk, ih _ (fun e he => ht e (by simp [he]))
        (by simpa using hn), h1]
      simp

/-- Files of the worksheets, when relationship ids are unique. -/
theorem worksheetFiles_eq (rels : List Relationship) (hn : (rels.map (·.id)).Nodup) :
    worksheetFiles rels = (rels.filter fun r => r.type = worksheetType).map fun r => (r.id, xlPrefix ++ r.target) := by
  have key : ∀ (rels : List Relationship) (d : List (Str × Str)),
      (d.map (·.1) ++ rels.map (·.id)).Nodup →
      rels.foldl (fun d r => if r.type = worksheetType then dictSet d r.id (xlPrefix ++ r.target) else d) d =
        d ++ (rels.filter fun r => r.type = worksheetType).map fun r => (r.id, xlPrefix ++ r.target) := by
    intro rels
    induction rels with
    | nil => intro d _; simp
    | cons r rels ih =>
      intro d hn
      rw [List.foldl_cons]
      by_cases ht : r.type = worksheetType
      · have hk : r.id ∉ d.map (·.1) := by
          intro hm
          rw [List.nodup_append] at hn
          exact hn.2.2 _ hm r.id (by simp) rfl
        rw [if_pos ht, dictSet_keys d _ _ hk, ih _ (by simpa using hn)]
        simp [ht]
      · rw [if_neg ht, ih]
        · simp [ht]
        · rw [List.map_cons] at hn
          refine hn.sublist ?_
          exact List.Sublist.append (List.Sublist.refl _) (List.sublist_cons_self _ _)
  have := key rels [] (by simpa using hn)
  simpa [worksheetFiles] using this

end Rxls
