import Verif.Lemmas.Biff

/-! Lemmas relating the block-wise (numba) scanner to the plain one. -/

namespace Rxls

theorem readByte_drop (chunk : Bytes) (o : Nat) :
    readByte (chunk.drop o) = match chunk[o]? with
      | none => .error .indexError
      | some b => .ok (b.toNat, chunk.drop (o + 1)) := by
  rcases hd : chunk[o]? with _ | b
  · have : chunk.drop o = [] := by
      rw [List.drop_eq_nil_iff]; exact List.getElem?_eq_none_iff.1 hd
    rw [this]; rfl
  · obtain ⟨ho, hb⟩ := List.getElem?_eq_some_iff.1 hd
    rw [List.drop_eq_getElem_cons ho, hb]; rfl

theorem and_127_of_and_128 {sz : Nat} (h : sz < 256) (hb : sz &&& 0x80 ≠ 0) :
    sz &&& 0x7F = sz ^^^ 0x80 := by
  have h1 : 128 ≤ sz := by
    rw [← Nat.not_lt]; intro hlt; exact hb (and_pow_eq_zero (k := 7) (by simpa using hlt))
  rw [and_127]
  exact ((xor_pow (k := 7) (by simpa using h1) (by simpa using h)).trans (by simp; omega)).symm

theorem and_mask_of_and {sz k : Nat} (h : sz < 2 ^ (k + 1)) (hb : sz &&& 2 ^ k ≠ 0) :
    sz &&& (2 ^ k - 1) = sz ^^^ 2 ^ k := by
  have h1 : 2 ^ k ≤ sz := by
    rw [← Nat.not_lt]; intro hlt; exact hb (and_pow_eq_zero hlt)
  rw [Nat.and_two_pow_sub_one_eq_mod, xor_pow h1 h]
  rw [Nat.pow_succ] at h
  rw [Nat.mod_eq_sub_mod h1, Nat.mod_eq_of_lt (by omega)]

/-- The header read at an offset of a chunk is the header the plain scanner reads there. -/
theorem hdrAt_eq (chunk : Bytes) (o : Nat) :
    hdrAt chunk o = match readId (chunk.drop o) with
      | .error _ => none
      | .ok (id, io1) => match readSize io1 with
        | .error _ => none
        | .ok (sz, io2) => some (toInt16 id, sz, chunk.length - io2.length) := by
  have key : ∀ (o : Nat) (id : Int),
      (do
        let sz := (← chunk[o]?).toNat
        let offset := o + 1
        if sz &&& 0x80 ≠ 0 then
          let b := (← chunk[offset]?).toNat
          let sz := (sz &&& 0x7F) ||| (b <<< 7)
          let offset := offset + 1
          if sz &&& 0x4000 ≠ 0 then
            let b := (← chunk[offset]?).toNat
            let sz := (sz &&& 0x3FFF) ||| (b <<< 14)
            let offset := offset + 1
            if sz &&& 0x200000 ≠ 0 then
              let b := (← chunk[offset]?).toNat
              let sz := (sz &&& 0x1FFFFF) ||| (b <<< 21)
              let offset := offset + 1
              pure (id, sz, offset)
            else pure (id, sz, offset)
          else pure (id, sz, offset)
        else pure (id, sz, offset) : Option (Int × Nat × Nat)) =
      match readSize (chunk.drop o) with
        | .error _ => none
        | .ok (sz, io2) => some (id, sz, chunk.length - io2.length) := by
    intro o id
    have lt : ∀ {i : Nat} {b : UInt8}, chunk[i]? = some b → i < chunk.length := fun h =>
      (List.getElem?_eq_some_iff.1 h).1
    unfold readSize
    rw [readByte_drop]
    rcases h0 : chunk[o]? with _ | b0
    · simp [bind, Except.bind]
    have l0 := lt h0
    by_cases c0 : b0.toNat &&& 0x80 = 0
    · simp [bind, Except.bind, c0]; omega
    rcases h1 : chunk[o + 1]? with _ | b1
    · simp [bind, Except.bind, c0, readByte_drop, h1]
    have l1 := lt h1
    have e0 : b0.toNat &&& 0x7F = b0.toNat ^^^ 0x80 := and_127_of_and_128 (byte_lt b0) c0
    have hx : b0.toNat ^^^ 0x80 < 128 := by rw [← e0, and_127]; omega
    by_cases c1 : (b0.toNat ^^^ 0x80 ||| b1.toNat <<< 7) &&& 0x4000 = 0
    · simp [bind, Except.bind, c0, readByte_drop, h1, c1, e0]; omega
    have hlt1 : (b0.toNat ^^^ 0x80 ||| b1.toNat <<< 7) < 2 ^ 15 := by
      rw [or_shift (by simpa using hx)]
      have := byte_lt b1
      simp; omega
    have e1 := and_mask_of_and (k := 14) hlt1 c1
    simp only [Nat.reducePow, Nat.reduceSub] at e1
    have hx1 : (b0.toNat ^^^ 0x80 ||| b1.toNat <<< 7) ^^^ 0x4000 < 2 ^ 14 := by
      rw [← e1]; exact Nat.lt_of_le_of_lt Nat.and_le_right (by simp)
    rcases h2 : chunk[o + 1 + 1]? with _ | b2
    · simp [bind, Except.bind, c0, readByte_drop, h1, c1, e0, h2]
    have l2 := lt h2
    by_cases c2 : ((b0.toNat ^^^ 0x80 ||| b1.toNat <<< 7) ^^^ 0x4000 ||| b2.toNat <<< 14)
        &&& 0x200000 = 0
    · simp [bind, Except.bind, c0, readByte_drop, h1, c1, e0, h2, e1, c2]; omega
    have hlt2 : ((b0.toNat ^^^ 0x80 ||| b1.toNat <<< 7) ^^^ 0x4000 ||| b2.toNat <<< 14) < 2 ^ 22 := by
      rw [or_shift hx1]
      have := byte_lt b2
      simp only [Nat.reducePow] at hx1 ⊢; omega
    have e2 := and_mask_of_and (k := 21) hlt2 c2
    simp only [Nat.reducePow, Nat.reduceSub] at e2
    rcases h3 : chunk[o + 1 + 1 + 1]? with _ | b3
    · simp [bind, Except.bind, c0, readByte_drop, h1, c1, e0, h2, e1, c2, h3]
    have l3 := lt h3
    simp [bind, Except.bind, c0, readByte_drop, h1, c1, e0, h2, e1, c2, h3, e2]; omega
  unfold hdrAt readId
  rw [readByte_drop]
  rcases h0 : chunk[o]? with _ | b0
  · simp [bind, Except.bind]
  by_cases c0 : b0.toNat &&& 0x80 = 0
  · have := key (o + 1) (toInt16 b0.toNat)
    simp only [bind, Except.bind, Option.bind_some, c0, ne_eq, not_true, if_false, pure] at this ⊢
    exact this
  · rcases h1 : chunk[o + 1]? with _ | b1
    · simp [bind, Except.bind, c0, readByte_drop, h1]
    · have := key (o + 2) (toInt16 (b0.toNat ||| b1.toNat <<< 8))
      simp only [bind, Except.bind, Option.bind_some, c0, ne_eq, not_false_iff, if_true, pure,
        readByte_drop, h1, Nat.add_assoc, Nat.reduceAdd] at this ⊢
      exact this

theorem toInt16_of_lt {n : Nat} (h : n < 0x8000) : toInt16 n = n := by
  unfold toInt16
  rw [if_pos (by omega)]
  omega

theorem scanChunkLoop_spec (only : OnlySet) (p w' q : Bytes) (r' : Record)
    (hr' : r'.asBinary = .ok w') (hw' : w' = p ++ q) (hq : q ≠ []) (rs : List Record) :
    ∀ (pre out chunk : Bytes) (n : Nat), encodeAll rs = .ok out → chunk = pre ++ (out ++ p) →
    (∀ r ∈ rs, r.recId < 0x8000) → out.length < n →
    scanChunkLoop chunk only n pre.length pre.length =
      (rs.filter (fun r => selectedNumba only r.recId)).map
        (fun r => ((r.recId : Int), r.data.length, r.data)) ++
      [(-1, pre.length + out.length, [])] := by
  induction rs with
  | nil =>
    intro pre out chunk n h hc _ hn
    cases h
    cases n with
    | zero => simp at hn
    | succ n =>
      subst hc
      rw [scanChunkLoop, hdrAt_eq]
      simp only [List.nil_append, List.drop_left]
      have hql : 0 < q.length := List.length_pos_iff.2 hq
      obtain ⟨_, a, b, ha, hb, hw⟩ := asBinary_split hr'
      rw [hw'] at hw
      rcases readId_prefix p with ⟨e, h1⟩ | ⟨v, p1, h1, h1'⟩
      · simp [h1]
      have e1 := h1' q
      rw [hw, List.append_assoc, readId_idField ha] at e1
      obtain ⟨rfl, e1'⟩ : r'.recId = v ∧ b ++ r'.data = p1 ++ q := by simpa using e1
      rcases readSize_prefix p1 with ⟨e, h2⟩ | ⟨v2, p2, h2, h2'⟩
      · simp [h1, h2]
      have e2 := h2' q
      rw [← e1', readSize_dumpSz hb] at e2
      obtain ⟨rfl, e2'⟩ : r'.data.length = v2 ∧ r'.data = p2 ++ q := by simpa using e2
      have hl : p2.length < r'.data.length := by
        have := congrArg List.length e2'
        simp at this; omega
      have hl1 := readId_length h1
      have hl2 := readSize_length h2
      simp only [h1, h2]
      rw [if_pos (by simp; omega)]
      simp
  | cons r rs ih =>
    intro pre out chunk n h hc hid hn
    obtain ⟨w, ws, hw, hws, rfl⟩ := encodeAll_cons h
    cases n with
    | zero => simp at hn
    | succ n =>
      obtain ⟨_, a, b, ha, hb, rfl⟩ := asBinary_split hw
      have hr : r.recId < 0x8000 := hid r (by simp)
      have hla := idField_length ha
      have hlb := dumpSz_length hb
      have hla1 : 1 ≤ a.length := by rw [hla]; split <;> omega
      rw [scanChunkLoop, hdrAt_eq]
      have hdrop : chunk.drop pre.length = a ++ (b ++ (r.data ++ (ws ++ p))) := by
        rw [hc, List.drop_left]; simp
      rw [hdrop, readId_idField ha]
      simp only []
      rw [readSize_dumpSz hb]
      simp only []
      have hlen : chunk.length = pre.length + (a.length + (b.length + (r.data.length +
          (ws.length + p.length)))) := by rw [hc]; simp
      have hoff : chunk.length - (r.data ++ (ws ++ p)).length = pre.length + a.length + b.length := by
        rw [hlen]; simp; omega
      rw [hoff, if_neg (by omega), toInt16_of_lt hr]
      have hsl : pySlice chunk (pre.length + a.length + b.length)
          (pre.length + a.length + b.length + r.data.length) = r.data := by
        unfold pySlice
        have : chunk = (pre ++ a ++ b) ++ r.data ++ (ws ++ p) := by rw [hc]; simp
        rw [this, List.take_append_of_le_length (by simp; omega), List.take_of_length_le (by simp; omega)]
        rw [List.drop_append_of_le_length (by simp; omega), List.drop_of_length_le (by simp; omega)]
        rfl
      rw [hsl]
      have := ih (pre ++ (a ++ b ++ r.data)) ws chunk n hws (by rw [hc]; simp)
        (fun r hr => hid r (by simp [hr])) (by
          simp only [List.length_append] at hn; omega)
      have hpl : (pre ++ (a ++ b ++ r.data)).length = pre.length + a.length + b.length + r.data.length := by
        simp; omega
      rw [hpl] at this
      rw [this]
      have hend : pre.length + a.length + b.length + r.data.length + ws.length
          = pre.length + (a ++ b ++ r.data ++ ws).length := by simp; omega
      rw [hend]
      cases hs : selectedNumba only r.recId <;> simp [hs]

theorem consumeYields_spec (l : List Record) (k : Nat) (chunk : Bytes) :
    consumeYields (l.map (fun r => ((r.recId : Int), r.data.length, r.data)) ++ [(-1, k, [])]) chunk
      = (chunk.drop k, l) := by
  induction l with
  | nil => simp [consumeYields]
  | cons r l ih =>
    simp only [List.map_cons, List.cons_append, consumeYields]
    rw [if_neg (by omega), ih]
    simp

theorem scanChunk_spec (only : OnlySet) (p w' q : Bytes) (r' : Record)
    (hr' : r'.asBinary = .ok w') (hw' : w' = p ++ q) (hq : q ≠ []) (rs : List Record)
    (out : Bytes) (h : encodeAll rs = .ok out) (hid : ∀ r ∈ rs, r.recId < 0x8000) :
    consumeYields (scanChunk (out ++ p) only) (out ++ p) =
      (p, rs.filter (fun r => selectedNumba only r.recId)) := by
  unfold scanChunk
  have := scanChunkLoop_spec only p w' q r' hr' hw' hq rs [] out (out ++ p)
    ((out ++ p).length + 1) h (by simp) hid (by simp; omega)
  simp only [List.length_nil, Nat.zero_add] at this
  rw [this, consumeYields_spec]
  simp

/-- Every prefix of a stream splits into whole records and a proper prefix of one record. -/
theorem split_prefix (rs : List Record) : ∀ (out t tq tw c d : Bytes) (tr : Record),
    encodeAll rs = .ok out → tr.asBinary = .ok tw → tw = t ++ tq → tq ≠ [] →
    c ++ d = out ++ t →
    ∃ (rs1 rs2 : List Record) (o1 o2 p : Bytes) (r' : Record) (w' q : Bytes), rs = rs1 ++ rs2 ∧ encodeAll rs1 = .ok o1 ∧ encodeAll rs2 = .ok o2 ∧
      c = o1 ++ p ∧ p ++ d = o2 ++ t ∧ r'.asBinary = .ok w' ∧ w' = p ++ q ∧ q ≠ [] := by
  induction rs with
  | nil =>
    intro out t tq tw c d tr h htr htw htq hcd
    cases h
    refine ⟨[], [], [], [], c, tr, tw, d ++ tq, rfl, rfl, rfl, by simp, hcd, htr, ?_, ?_⟩
    · rw [htw, ← List.append_assoc, hcd]; simp
    · simp [htq]
  | cons r rs ih =>
    intro out t tq tw c d tr h htr htw htq hcd
    obtain ⟨w, ws, hw, hws, rfl⟩ := encodeAll_cons h
    by_cases hl : w.length ≤ c.length
    · obtain ⟨c', rfl⟩ : ∃ c', c = w ++ c' := by
        have h1 : (c ++ d).take w.length = w := by rw [hcd, List.append_assoc]; simp
        rw [List.take_append_of_le_length hl] at h1
        refine ⟨c.drop w.length, ?_⟩
        conv_lhs => rw [← List.take_append_drop w.length c, h1]
      obtain ⟨rs1, rs2, o1, o2, p, r', w', q, e1, e2, e3, e4, e5, e6, e7, e8⟩ :=
        ih ws t tq tw c' d tr hws htr htw htq (by
          simp only [List.append_assoc] at hcd
          exact List.append_cancel_left hcd)
      refine ⟨r :: rs1, rs2, w ++ o1, o2, p, r', w', q, by simp [e1], ?_, e3, by simp [e4], e5, e6,
        e7, e8⟩
      simp only [encodeAll, hw, e2, bind, Except.bind]
    · refine ⟨[], r :: rs, [], w ++ ws, c, r, w, w.drop c.length, rfl, rfl, h, by simp, hcd, hw, ?_,
        ?_⟩
      · have h1 : (c ++ d).take c.length = c := by simp
        rw [hcd, List.append_assoc, List.take_append_of_le_length (by omega)] at h1
        conv_lhs => rw [← List.take_append_drop c.length w, h1]
      · intro hd; have := List.drop_eq_nil_iff.1 hd; omega

/-- With the file exhausted and a proper prefix of a record left over, every further round is
idle; the loop ends only if nothing is left over. -/
theorem numbaRun_tail (blk : Nat) (only : OnlySet) (t tq tw : Bytes)
    (tr : Record) (htr : tr.asBinary = .ok tw) (htw : tw = t ++ tq) (htq : tq ≠ []) :
    ∀ n, 1 ≤ n → numbaRun blk only n t [] = ([], t.isEmpty) := by
  intro n hn
  induction n with
  | zero => omega
  | succ n ih =>
    rw [numbaRun]
    simp only [List.take_nil, List.append_nil, List.drop_nil]
    cases t with
    | nil => rfl
    | cons b t =>
      have := scanChunk_spec only (b :: t) tw tq tr htr htw htq [] [] rfl (by simp)
      simp only [List.nil_append] at this
      rw [this]
      cases n with
      | zero => simp [numbaRun]
      | succ n => simp [ih]

/-- The numba scanner on `whole records ++ proper prefix of a record`, started in the middle. -/
theorem numbaRun_spec (blk : Nat) (hblk : 1 ≤ blk) (only : OnlySet) (t tq tw : Bytes)
    (tr : Record) (htr : tr.asBinary = .ok tw) (htw : tw = t ++ tq) (htq : tq ≠ []) :
    ∀ (n : Nat) (rs : List Record) (out chunk io : Bytes), encodeAll rs = .ok out →
      (∀ r ∈ rs, r.recId < 0x8000) → chunk ++ io = out ++ t → io.length + 1 < n →
      numbaRun blk only n chunk io =
        (rs.filter (fun r => selectedNumba only r.recId), t.isEmpty) := by
  intro n
  induction n with
  | zero => intro rs out chunk io _ _ _ h; omega
  | succ n ih =>
    intro rs out chunk io h hid hio hn
    rw [numbaRun]
    simp only []
    by_cases he : (chunk ++ io.take blk).isEmpty
    · rw [if_pos he]
      have he' : chunk = [] ∧ io = [] := by
        simp at he
        refine ⟨he.1, ?_⟩
        rcases he.2 with h | h
        · omega
        · exact h
      obtain ⟨rfl, rfl⟩ := he'
      simp at hio
      obtain ⟨rfl, rfl⟩ := hio
      have : rs = [] := by
        cases rs with
        | nil => rfl
        | cons r rs =>
          obtain ⟨w, ws, hw, hws, e⟩ := encodeAll_cons h
          have := asBinary_length hw
          have h0 : w = [] := by simp at e; exact e.1
          rw [h0] at this
          simp [wireLength] at this
          repeat' split at this
          all_goals omega
      subst this; rfl
    · rw [if_neg he]
      cases io with
      | cons b io =>
        obtain ⟨rs1, rs2, o1, o2, p, r', w', q, e1, e2, e3, e4, e5, e6, e7, e8⟩ :=
          split_prefix rs out t tq tw (chunk ++ (b :: io).take blk) ((b :: io).drop blk) tr h htr
            htw htq (by rw [List.append_assoc, List.take_append_drop, hio])
        subst e1
        rw [e4, scanChunk_spec only p w' q r' e6 e7 e8 rs1 o1 e2
          (fun r hr => hid r (by simp [hr]))]
        simp only []
        have := ih rs2 o2 p ((b :: io).drop blk) e3 (fun r hr => hid r (by simp [hr])) e5 (by
          simp only [List.length_drop, List.length_cons] at hn ⊢; omega)
        rw [this]; simp
      | nil =>
        simp only [List.append_nil, List.take_nil, List.drop_nil] at hio ⊢
        rw [hio, scanChunk_spec only t tw tq tr htr htw htq rs out h hid]
        simp only []
        rw [numbaRun_tail blk only t tq tw tr htr htw htq n (by simp at hn; omega)]
        simp

/-- With a partial record at the end, no number of rounds finishes. -/
theorem numbaRun_unfinished (blk : Nat) (hblk : 1 ≤ blk) (only : OnlySet) (t tq tw : Bytes)
    (tr : Record) (htr : tr.asBinary = .ok tw) (htw : tw = t ++ tq) (htq : tq ≠ []) (ht : t ≠ []) :
    ∀ (n : Nat) (rs : List Record) (out chunk io : Bytes), encodeAll rs = .ok out →
      (∀ r ∈ rs, r.recId < 0x8000) → chunk ++ io = out ++ t →
      (numbaRun blk only n chunk io).2 = false := by
  intro n
  induction n with
  | zero => intros; rfl
  | succ n ih =>
    intro rs out chunk io h hid hio
    rw [numbaRun]
    simp only []
    by_cases he : (chunk ++ io.take blk).isEmpty
    · exfalso
      have he' : chunk = [] ∧ io = [] := by
        simp at he
        refine ⟨he.1, ?_⟩
        rcases he.2 with h | h
        · omega
        · exact h
      obtain ⟨rfl, rfl⟩ := he'
      simp at hio
      exact ht hio.2
    · rw [if_neg he]
      obtain ⟨rs1, rs2, o1, o2, p, r', w', q, e1, e2, e3, e4, e5, e6, e7, e8⟩ :=
        split_prefix rs out t tq tw (chunk ++ io.take blk) (io.drop blk) tr h htr htw htq (by
          rw [List.append_assoc, List.take_append_drop, hio])
      subst e1
      rw [e4, scanChunk_spec only p w' q r' e6 e7 e8 rs1 o1 e2 (fun r hr => hid r (by simp [hr]))]
      exact ih rs2 o2 p (io.drop blk) e3 (fun r hr => hid r (by simp [hr])) e5

theorem writeAll_nil {rs : List Record} {out : Bytes} (h : writeAll rs [] = .ok out) :
    encodeAll rs = .ok out := by
  rw [writeAll_eq] at h
  cases he : encodeAll rs with
  | error e => rw [he] at h; cases h
  | ok o => rw [he] at h; simpa [Except.map] using h

theorem groupsValue_dumpSz {i : Nat} {b : Bytes} (h : dumpSz i = .ok b) :
    groupsValue b = i ∧ Continued b := by
  rw [dumpSz_eq] at h
  split at h
  · cases h
    simp [groupsValue, Continued]; omega
  split at h
  · cases h
    simp [groupsValue, Continued]; omega
  split at h
  · cases h
    simp [groupsValue, Continued]; omega
  split at h
  · cases h
    simp [groupsValue, Continued]; omega
  · cases h

/-- The whole-stream hypothesis used below gives a proper prefix: the empty one. -/
theorem numba_whole (blk : Nat) (hblk : 1 ≤ blk) (only : OnlySet) (rs : List Record) (out : Bytes)
    (h : encodeAll rs = .ok out) (hid : ∀ r ∈ rs, r.recId < 0x8000) (n : Nat)
    (hn : out.length + 1 < n) :
    numbaRun blk only n [] out = (rs.filter (fun r => selectedNumba only r.recId), true) := by
  have := numbaRun_spec blk hblk only [] [0, 0] [0, 0] ⟨0, []⟩ (by decide +kernel) rfl (by simp)
    n rs out [] out h hid (by simp) hn
  simpa using this

end Rxls
