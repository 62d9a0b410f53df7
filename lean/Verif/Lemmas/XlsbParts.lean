import Verif.Spec.Sheet
import Verif.Lemmas.Utf16
import Verif.Lemmas.NumFmt
import Verif.Props.Recs

/-! # Lemmas about the other parts of an XLSB package -/

namespace Rxls

theorem le16_inj {m n : Nat} (hm : m < 65536) (hn : n < 65536) (h : le16 m = le16 n) : m = n := by
  simp only [le16, List.cons.injEq, and_true] at h
  have h1 := congrArg UInt8.toNat h.1
  have h2 := congrArg UInt8.toNat h.2
  simp at h1 h2
  omega

theorem le32_inj {m n : Nat} (hm : m < 2 ^ 32) (hn : n < 2 ^ 32) (h : le32 m = le32 n) : m = n := by
  have h1 := unpackI_le32 hm
  rw [h, unpackI_le32 hn] at h1
  simpa using h1.symm

theorem packH_eq {n : Nat} (h : n < 65536) : packH n = .ok (le16 n) := by
  rw [packH, if_pos h, le16, Nat.mod_eq_of_lt (show n / 256 < 256 by omega)]

/-! ## Shared strings -/

theorem sstText_item (flags : UInt8) (s : Str) (runs : Bytes) (h : NoMark s) (hl : (utf16 s).length < 2 ^ 32) :
    sstText (sstItem flags s runs).data = .ok s := by
  have e1 : pySlice (sstItem flags s runs).data 1 5 = le32 (utf16 s).length := rfl
  have e2 : pySlice (sstItem flags s runs).data 5 (5 + (utf16 s).length * 2) = utf16LE s := by
    have : (sstItem flags s runs).data = (flags :: le32 (utf16 s).length) ++ (utf16LE s ++ runs) := by
      simp [sstItem, wideString]
    rw [this, pySlice, List.take_append, List.drop_append, ← utf16LE_length]
    simp [le32]
  rw [sstText, e1, unpackI_le32 hl]
  simp only [e2]
  exact decodeUtf16_utf16LE h

theorem sharedFrom_items (isNull : Str → Bool) (items : List (UInt8 × Str × Bytes)) : ∀ (i : Nat),
    i + items.length ≤ 2 ^ 32 → (∀ x ∈ items, NoMark x.2.1 ∧ (utf16 x.2.1).length < 2 ^ 32) →
    sharedFrom isNull i (items.map fun x => sstItem x.1 x.2.1 x.2.2) =
      .ok (items.map fun x => some x.2.1,
        ((items.zipIdx i).filter fun p => isNull p.1.2.1).map fun p => le32 p.2) := by
  induction items with
  | nil => intro i _ _; rfl
  | cons x items ih =>
    intro i hi h
    obtain ⟨hm, hl⟩ := h x (by simp)
    simp only [List.length_cons] at hi
    rw [List.map_cons, sharedFrom, sstText_item _ _ _ hm hl]
    simp only
    rw [ih (i + 1) (by omega) fun y hy => h y (by simp [hy])]
    cases hn : isNull x.2.1 with
    | false => simp [List.zipIdx_cons, hn]
    | true =>
      have hp : packI i = .ok (le32 i) := packI_eq (by omega)
      simp [List.zipIdx_cons, hn, hp, Except.map]

/-! ## Styles -/

theorem xfsFrom_records (xs : List Xf) : ∀ (i : Nat), i + xs.length ≤ 65536 →
    (∀ x ∈ xs, x.parent < 65536) →
    xfsFrom i (xs.map Xf.record) =
      .ok (((xs.filter fun x => x.parent ≠ 0xFFFF).zipIdx i).map fun p => (le16 p.2 ++ [0], le16 p.1.fmt)) := by
  induction xs with
  | nil => intro i _ _; rfl
  | cons x xs ih =>
    intro i hi hx
    simp only [List.length_cons] at hi
    have hxp := hx x (by simp)
    have hx' := fun y hy => hx y (List.mem_cons_of_mem _ hy)
    rw [List.map_cons, xfsFrom]
    have e1 : pySlice x.record.data 0 2 = le16 x.parent := rfl
    have e2 : pySlice x.record.data 2 4 = le16 x.fmt := rfl
    rw [e1, e2]
    have e3 : le16 x.parent = [0xFF, 0xFF] ↔ x.parent = 0xFFFF := by
      constructor
      · intro h
        exact le16_inj hxp (by omega) (h.trans (by decide))
      · intro h; rw [h]; decide
    by_cases hf : x.parent = 0xFFFF
    · rw [if_pos (e3.2 hf), ih i (by omega) hx']
      simp [hf]
    · rw [if_neg (fun h => hf (e3.1 h)), packH_eq (by omega)]
      simp only
      rw [ih (i + 1) (by omega) hx']
      simp [hf, List.zipIdx_cons]

/-- Decoding a wide string together with its length field. -/
theorem decode_with_length (s : Str) (h : (utf16 s).length < 0xD800) :
    decodeUtf16 (wideString s) = .ok (Char.ofNat (utf16 s).length :: Char.ofNat 0 :: s) := by
  set n := (utf16 s).length with hn
  have hc : (Char.ofNat n).toNat = n := char_toNat_ofNat (Or.inl h)
  have h0 : (Char.ofNat 0).toNat = 0 := by decide
  have : wideString s = utf16LE (Char.ofNat n :: Char.ofNat 0 :: s) := by
    rw [utf16LE_cons_bmp (by omega), utf16LE_cons_bmp (by rw [h0]; decide), wideString, ← hn, le32]
    rw [hc, h0]
    have e1 : n / 65536 % 256 = 0 := by omega
    have e2 : n / 16777216 % 256 = 0 := by omega
    have e3 : n / 256 % 256 = n / 256 := by omega
    rw [e1, e2, e3]
    rfl
  rw [this]
  apply decodeUtf16_utf16LE
  intro c t hct
  simp only [List.cons.injEq] at hct
  rw [← hct.1, hc]
  omega

theorem fmsOf_records (fs : List (Nat × Str)) (h : ∀ f ∈ fs, (utf16 f.2).length < 0xD800) :
    fmsOf (fs.map fmtRecord) = .ok (fs.map fun f =>
      (le16 f.1, beforeSemicolon (Char.ofNat (utf16 f.2).length :: Char.ofNat 0 :: f.2))) := by
  induction fs with
  | nil => rfl
  | cons f fs ih =>
    rw [List.map_cons, fmsOf]
    have e1 : (fmtRecord f).data.drop 2 = wideString f.2 := rfl
    have e2 : pySlice (fmtRecord f).data 0 2 = le16 f.1 := rfl
    rw [e1, e2, decode_with_length _ (h f (by simp)), ih fun g hg => h g (by simp [hg])]
    rfl

theorem dictOf_aux {κ α : Type} [DecidableEq κ] (l : List (κ × α)) : ∀ d : List (κ × α),
    (d ++ l).map (·.1) |>.Nodup → l.foldl (fun d p => dictSet d p.1 p.2) d = d ++ l := by
  induction l with
  | nil => intro d _; simp
  | cons p l ih =>
    intro d h
    rw [List.foldl_cons]
    have hd : dictSet d p.1 p.2 = d ++ [p] := by
      rw [dictSet, if_neg]
      simp only [List.any_eq_true, not_exists, not_and, decide_eq_true_eq]
      intro q hq he
      rw [List.map_append, List.nodup_append] at h
      exact h.2.2 q.1 (List.mem_map_of_mem hq) p.1 (by simp) he
    rw [hd, ih (d ++ [p]) (by simpa using h)]
    simp

theorem dictOf_nodup {κ α : Type} [DecidableEq κ] (l : List (κ × α)) (h : (l.map (·.1)).Nodup) : dictOf l = l := by
  have := dictOf_aux l [] (by simpa using h)
  simpa [dictOf] using this

theorem customStyles_mem (xfs : List (Bytes × Bytes)) (k : Bytes) : ∀ (fms : List (Bytes × Str)),
    k ∈ customStyles xfs fms ↔
      ∃ f fmt, (f, fmt) ∈ fms ∧ (fmt = ['0'] ∨ fmtTemporal fmt = true) ∧ (k, f) ∈ xfs
  | [] => by simp [customStyles]
  | (f, fmt) :: rest => by
    rw [customStyles, List.mem_append, customStyles_mem xfs k rest]
    constructor
    · rintro (h | ⟨f', fmt', h1, h2, h3⟩)
      · split at h
        next hc =>
          obtain ⟨p, hp, rfl⟩ := List.mem_map.1 h
          obtain ⟨hp1, hp2⟩ := List.mem_filter.1 hp
          refine ⟨f, fmt, by simp, hc, ?_⟩
          have : p.2 = f := by simpa using hp2
          rw [← this]
          exact hp1
        next => simp at h
      · exact ⟨f', fmt', by simp [h1], h2, h3⟩
    · rintro ⟨f', fmt', h1, h2, h3⟩
      rcases List.mem_cons.1 h1 with h | h
      · left
        simp only [Prod.mk.injEq] at h
        obtain ⟨rfl, rfl⟩ := h
        rw [if_pos h2]
        exact List.mem_map.2 ⟨(k, f'), List.mem_filter.2 ⟨h3, by simp⟩, rfl⟩
      · exact Or.inr ⟨f', fmt', h, h2, h3⟩

theorem builtinStyles_mem : ∀ (xfs : List (Bytes × Bytes)), (∀ p ∈ xfs, p.2 ≠ []) →
    ∃ l, builtinStyles xfs = .ok l ∧ ∀ k, k ∈ l ↔ ∃ b t, (k, b :: t) ∈ xfs ∧ b.toNat ∈ temporalStyles
  | [], _ => ⟨[], rfl, by simp⟩
  | (k', y) :: rest, h => by
    obtain ⟨l, h1, h2⟩ := builtinStyles_mem rest fun p hp => h p (by simp [hp])
    have hy := h (k', y) (by simp)
    cases y with
    | nil => simp at hy
    | cons b t =>
      refine ⟨_, by rw [builtinStyles, h1], ?_⟩
      intro k
      by_cases hb : b.toNat ∈ temporalStyles
      · have : temporalStyles.contains b.toNat = true := by simpa using hb
        rw [if_pos this, List.mem_cons, h2]
        constructor
        · rintro (rfl | ⟨b', t', h3, h4⟩)
          · exact ⟨b, t, by simp, hb⟩
          · exact ⟨b', t', by simp [h3], h4⟩
        · rintro ⟨b', t', h3, h4⟩
          rcases List.mem_cons.1 h3 with h | h
          · left; simp at h; exact h.1
          · exact Or.inr ⟨b', t', h, h4⟩
      · have : ¬ temporalStyles.contains b.toNat = true := by simpa using hb
        rw [if_neg this, h2]
        constructor
        · rintro ⟨b', t', h3, h4⟩
          exact ⟨b', t', by simp [h3], h4⟩
        · rintro ⟨b', t', h3, h4⟩
          rcases List.mem_cons.1 h3 with h | h
          · simp at h
            obtain ⟨_, rfl, _⟩ := h
            exact absurd h4 hb
          · exact ⟨b', t', h, h4⟩

/-- The cell formats of a style sheet, in order. -/
def cellXfs (xs : List Xf) : List Xf := xs.filter fun x => x.parent ≠ 0xFFFF

/-- Exactly which cell formats are temporal to the reader. -/
theorem xlsbStyles_exact (part : Bytes) (xs : List Xf) (fs : List (Nat × Str))
    (h47 : scanBiff (some [47]) part = xs.map Xf.record) (h44 : scanBiff (some [44]) part = fs.map fmtRecord)
    (hlen : xs.length ≤ 65536) (hx : ∀ x ∈ xs, x.parent < 65536 ∧ x.fmt < 65536)
    (hf : ∀ f ∈ fs, f.1 < 65536 ∧ (utf16 f.2).length < 0xD800) (hn : (fs.map (·.1)).Nodup) :
    ∃ l, xlsbStyles part = .ok l ∧ ∀ i x, (cellXfs xs)[i]? = some x →
      (le16 i ++ [0] ∈ l ↔ x.fmt % 256 ∈ temporalStyles ∨
        ∃ code, (x.fmt, code) ∈ fs ∧
          fmtTemporal (beforeSemicolon (Char.ofNat (utf16 code).length :: Char.ofNat 0 :: code)) = true) := by
  have e1 := xfsFrom_records xs 0 (by omega) fun x h => (hx x h).1
  have e2 := fmsOf_records fs fun f h => (hf f h).2
  set X := ((xs.filter fun x => x.parent ≠ 0xFFFF).zipIdx 0).map fun p => (le16 p.2 ++ [0], le16 p.1.fmt) with hX
  set F := fs.map fun f => (le16 f.1, beforeSemicolon (Char.ofNat (utf16 f.2).length :: Char.ofNat 0 :: f.2)) with hF
  have hkeys : (F.map (·.1)).Nodup := by
    rw [hF, List.map_map]
    have : (fs.map (·.1)).Pairwise (· ≠ ·) := hn
    rw [List.pairwise_map] at this
    rw [List.Nodup, List.pairwise_map]
    refine this.imp_of_mem ?_
    intro a b ha hb hab h
    exact hab (le16_inj (hf a ha).1 (hf b hb).1 h)
  have hd := dictOf_nodup F hkeys
  obtain ⟨b, hb1, hb2⟩ := builtinStyles_mem X (by
    intro p hp
    rw [hX] at hp
    obtain ⟨q, _, rfl⟩ := List.mem_map.1 hp
    simp [le16])
  refine ⟨customStyles X F ++ b, by rw [xlsbStyles, h47, e1]; simp only [h44, e2, hb1, hd], ?_⟩
  intro i x hi
  have hlenx : (cellXfs xs).length ≤ xs.length := List.length_filter_le _ _
  have hil : i < (cellXfs xs).length := (List.getElem?_eq_some_iff.1 hi).1
  have hXmem : ∀ y, (le16 i ++ [0], y) ∈ X ↔ y = le16 x.fmt := by
    intro y
    rw [hX, List.mem_map]
    constructor
    · rintro ⟨⟨z, j⟩, hm, he⟩
      simp only [Prod.mk.injEq] at he
      have hj := List.mem_zipIdx_iff_getElem?.1 hm
      have hjl : j < (cellXfs xs).length := (List.getElem?_eq_some_iff.1 hj).1
      have hij : j = i := le16_inj (by omega) (by omega) (List.append_cancel_right he.1)
      subst hij
      change (cellXfs xs)[j]? = some z at hj
      rw [hi] at hj
      simp at hj
      rw [← he.2, hj]
    · rintro rfl
      exact ⟨(x, i), List.mem_zipIdx_iff_getElem?.2 hi, rfl⟩
  have hxm : x ∈ xs := (List.mem_filter.1 (List.mem_of_getElem? hi)).1
  rw [List.mem_append, customStyles_mem, hb2]
  constructor
  · rintro (⟨f, fmt, h1, h2, h3⟩ | ⟨b', t, h1, h2⟩)
    · right
      rw [hXmem] at h3
      rw [hF] at h1
      obtain ⟨⟨fid, code⟩, hm, he⟩ := List.mem_map.1 h1
      simp only [Prod.mk.injEq] at he
      have hid : fid = x.fmt := le16_inj (hf _ hm).1 (hx x hxm).2 (he.1.trans h3)
      refine ⟨code, hid ▸ hm, ?_⟩
      rw [he.2]
      rcases h2 with h2 | h2
      · exfalso
        rw [← he.2, beforeSemicolon] at h2
        rw [List.takeWhile_cons] at h2
        split at h2
        · rw [List.takeWhile_cons_of_pos (by decide)] at h2
          simp at h2
        · simp at h2
      · exact h2
    · left
      rw [hXmem] at h1
      simp only [le16, List.cons.injEq] at h1
      rw [h1.1] at h2
      simpa using h2
  · rintro (h | ⟨code, h1, h2⟩)
    · right
      refine ⟨UInt8.ofNat (x.fmt % 256), [UInt8.ofNat (x.fmt / 256 % 256)], (hXmem _).2 rfl, ?_⟩
      simpa using h
    · left
      refine ⟨le16 x.fmt, _, List.mem_map.2 ⟨(x.fmt, code), h1, rfl⟩, Or.inr h2, (hXmem _).2 rfl⟩

/-! ## Sheets -/

theorem xlsbSheetsFrom_records (rels : List Relationship) (tgt : Str → Str) (es : List SheetEntry) :
    ∀ d : List (Str × Str), (∀ e ∈ es, e.Fits) →
    (∀ e ∈ es, (rels.find? fun x => x.id = e.rel).map (·.target) = some (tgt e.rel)) →
    ((d.map (·.1)) ++ es.map (·.name)).Nodup →
    xlsbSheetsFrom rels d (es.map SheetEntry.record) =
      .ok (d ++ es.map fun e => (e.name, xlPrefix ++ tgt e.rel)) := by
  induction es with
  | nil => intro d _ _ _; simp [xlsbSheetsFrom]
  | cons e es ih =>
    intro d hf ht hn
    obtain ⟨h1, h2, h3, h4, h5, h6⟩ := hf e (by simp)
    rw [List.map_cons, xlsbSheetsFrom]
    have hb := C11_bundle_parse e.state e.tab e.rel e.name [] h1 h2 h3 h4 h5 h6
    rw [List.append_nil] at hb
    have hb' : bundleLoadr e.record.data = .ok ⟨e.state, e.tab, some e.rel, some e.name⟩ := hb
    rw [hb']
    change (match (rels.find? fun x => decide (x.id = e.rel)) with
      | none => (Except.error PyErr.stopIteration : Py (List (Str × Str)))
      | some x => xlsbSheetsFrom rels (dictSet d e.name (xlPrefix ++ x.target)) (es.map SheetEntry.record)) = _
    have := ht e (by simp)
    cases hx : rels.find? fun x => x.id = e.rel with
    | none => rw [hx] at this; simp at this
    | some x =>
      rw [hx] at this
      simp only [Option.map_some, Option.some.injEq] at this
      simp only
      have hd : dictSet d e.name (xlPrefix ++ x.target) = d ++ [(e.name, xlPrefix ++ tgt e.rel)] := by
        rw [dictSet, if_neg, this]
        simp only [List.any_eq_true, not_exists, not_and, decide_eq_true_eq]
        intro q hq he
        rw [List.nodup_append] at hn
        exact hn.2.2 q.1 (List.mem_map_of_mem hq) e.name (by simp) he
      rw [hd, ih _ (fun e he => hf e (by simp [he])) (fun e he => ht e (by simp [he])) (by simpa using hn)]
      simp

end Rxls
