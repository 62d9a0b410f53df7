import Verif.Lemmas.BiffNumba

/-! Both scanners on arbitrary bytes. -/

namespace Rxls

/-! ### The size field -/

private theorem b7 {x : Nat} (h : x < 128) : x &&& 0x80 = 0 :=
  and_pow_eq_zero (k := 7) (by simpa using h)

private theorem b7' {x : Nat} (h : 128 ≤ x) (h2 : x < 256) : x &&& 0x80 ≠ 0 :=
  and_pow_ne_zero (k := 7) (by simpa using h) (by simpa using h2)

private theorem g2 {x y : Nat} (h : 128 ≤ x) (h2 : x < 256) :
    x ^^^ 0x80 ||| y <<< 7 = x - 128 + y * 128 := by
  have e : x ^^^ 0x80 = x - 128 := xor_pow (k := 7) (by simpa using h) (by simpa using h2)
  rw [e, or_shift (by simp; omega)]; simp

private theorem g3 {x y : Nat} (h : 16384 ≤ x) (h2 : x < 32768) :
    x ^^^ 0x4000 ||| y <<< 14 = x - 16384 + y * 16384 := by
  have e : x ^^^ 0x4000 = x - 16384 := xor_pow (k := 14) (by simpa using h) (by simpa using h2)
  rw [e, or_shift (by simp; omega)]; simp

private theorem g4 {x y : Nat} (h : 2097152 ≤ x) (h2 : x < 4194304) :
    x ^^^ 0x200000 ||| y <<< 21 = x - 2097152 + y * 2097152 := by
  have e : x ^^^ 0x200000 = x - 2097152 :=
    xor_pow (k := 21) (by simpa using h) (by simpa using h2)
  rw [e, or_shift (by simp; omega)]; simp

private theorem lt256 (b : UInt8) : b.toNat < 256 := b.toNat_lt

theorem readSize_one {a : UInt8} (ha : a.toNat < 128) (rest : Bytes) :
    readSize (a :: rest) = .ok (a.toNat, rest) := by
  simp [readSize, readByte, bind, Except.bind, b7 ha]

theorem readSize_two {a b : UInt8} (ha : 128 ≤ a.toNat) (hb : b.toNat < 128) (rest : Bytes) :
    readSize (a :: b :: rest) = .ok (a.toNat - 128 + b.toNat * 128, rest) := by
  have := lt256 a
  have h4 : (a.toNat - 128 + b.toNat * 128) &&& 0x4000 = 0 :=
    and_pow_eq_zero (k := 14) (by simp; omega)
  simp [readSize, readByte, bind, Except.bind, b7' ha (lt256 a), g2 ha (lt256 a), h4]

theorem readSize_three {a b c : UInt8} (ha : 128 ≤ a.toNat) (hb : 128 ≤ b.toNat)
    (hc : c.toNat < 128) (rest : Bytes) :
    readSize (a :: b :: c :: rest) =
      .ok (a.toNat - 128 + (b.toNat - 128) * 128 + c.toNat * 16384, rest) := by
  have := lt256 a
  have := lt256 b
  have h4 : (a.toNat - 128 + b.toNat * 128) &&& 0x4000 ≠ 0 :=
    and_pow_ne_zero (k := 14) (by simp; omega) (by simp; omega)
  have e3 : (a.toNat - 128 + b.toNat * 128) ^^^ 0x4000 ||| c.toNat <<< 14 =
      a.toNat - 128 + (b.toNat - 128) * 128 + c.toNat * 16384 := by
    rw [g3 (by omega) (by omega)]; omega
  have h5 : (a.toNat - 128 + (b.toNat - 128) * 128 + c.toNat * 16384) &&& 0x200000 = 0 :=
    and_pow_eq_zero (k := 21) (by simp; omega)
  simp [readSize, readByte, bind, Except.bind, b7' ha (lt256 a), g2 ha (lt256 a), h4, e3, h5]

theorem readSize_four {a b c : UInt8} (d : UInt8) (ha : 128 ≤ a.toNat) (hb : 128 ≤ b.toNat)
    (hc : 128 ≤ c.toNat) (rest : Bytes) :
    readSize (a :: b :: c :: d :: rest) =
      .ok (a.toNat - 128 + (b.toNat - 128) * 128 + (c.toNat - 128) * 16384 +
        d.toNat * 2097152, rest) := by
  have := lt256 a
  have := lt256 b
  have := lt256 c
  have h4 : (a.toNat - 128 + b.toNat * 128) &&& 0x4000 ≠ 0 :=
    and_pow_ne_zero (k := 14) (by simp; omega) (by simp; omega)
  have e3 : (a.toNat - 128 + b.toNat * 128) ^^^ 0x4000 ||| c.toNat <<< 14 =
      a.toNat - 128 + (b.toNat - 128) * 128 + c.toNat * 16384 := by
    rw [g3 (by omega) (by omega)]; omega
  have h5 : (a.toNat - 128 + (b.toNat - 128) * 128 + c.toNat * 16384) &&& 0x200000 ≠ 0 :=
    and_pow_ne_zero (k := 21) (by simp; omega) (by simp; omega)
  have e4 : (a.toNat - 128 + (b.toNat - 128) * 128 + c.toNat * 16384) ^^^ 0x200000 |||
      d.toNat <<< 21 = a.toNat - 128 + (b.toNat - 128) * 128 + (c.toNat - 128) * 16384 +
        d.toNat * 2097152 := by
    rw [g4 (by omega) (by omega)]; omega
  simp [readSize, readByte, bind, Except.bind, b7' ha (lt256 a), g2 ha (lt256 a), h4, e3, h5, e4]

theorem readSize_short2 {a : UInt8} (ha : 128 ≤ a.toNat) : ∃ e, readSize [a] = .error e := by
  exact ⟨.indexError, by simp [readSize, readByte, bind, Except.bind, b7' ha (lt256 a)]⟩

theorem readSize_short3 {a b : UInt8} (ha : 128 ≤ a.toNat) (hb : 128 ≤ b.toNat) :
    ∃ e, readSize [a, b] = .error e := by
  have := lt256 a
  have := lt256 b
  have h4 : (a.toNat - 128 + b.toNat * 128) &&& 0x4000 ≠ 0 :=
    and_pow_ne_zero (k := 14) (by simp; omega) (by simp; omega)
  exact ⟨.indexError, by
    simp [readSize, readByte, bind, Except.bind, b7' ha (lt256 a), g2 ha (lt256 a), h4]⟩

theorem readSize_short4 {a b c : UInt8} (ha : 128 ≤ a.toNat) (hb : 128 ≤ b.toNat)
    (hc : 128 ≤ c.toNat) : ∃ e, readSize [a, b, c] = .error e := by
  have := lt256 a
  have := lt256 b
  have := lt256 c
  have h4 : (a.toNat - 128 + b.toNat * 128) &&& 0x4000 ≠ 0 :=
    and_pow_ne_zero (k := 14) (by simp; omega) (by simp; omega)
  have e3 : (a.toNat - 128 + b.toNat * 128) ^^^ 0x4000 ||| c.toNat <<< 14 =
      a.toNat - 128 + (b.toNat - 128) * 128 + c.toNat * 16384 := by
    rw [g3 (by omega) (by omega)]; omega
  have h5 : (a.toNat - 128 + (b.toNat - 128) * 128 + c.toNat * 16384) &&& 0x200000 ≠ 0 :=
    and_pow_ne_zero (k := 21) (by simp; omega) (by simp; omega)
  exact ⟨.indexError, by
    simp [readSize, readByte, bind, Except.bind, b7' ha (lt256 a), g2 ha (lt256 a), h4, e3, h5]⟩

/-- Reading a size field, for every input. -/
theorem readSize_iff (io : Bytes) (v : Nat) (rest : Bytes) :
    readSize io = .ok (v, rest) ↔ ∃ sz, io = sz ++ rest ∧ SizeField sz v := by
  constructor
  · intro h
    match io, h with
    | [], h => simp [readSize, readByte, bind, Except.bind] at h
    | a :: io, h =>
      by_cases ha : a.toNat < 128
      · rw [readSize_one ha] at h; cases h
        exact ⟨[a], rfl, by simp [SizeField, Continued, groupsValue, ha]⟩
      have ha' : 128 ≤ a.toNat := by omega
      have := lt256 a
      match io, h with
      | [], h => obtain ⟨e, he⟩ := readSize_short2 ha'; rw [he] at h; cases h
      | b :: io, h =>
        by_cases hb : b.toNat < 128
        · rw [readSize_two ha' hb] at h; cases h
          exact ⟨[a, b], rfl, by simp [SizeField, Continued, groupsValue, hb, ha']; omega⟩
        have hb' : 128 ≤ b.toNat := by omega
        have := lt256 b
        match io, h with
        | [], h => obtain ⟨e, he⟩ := readSize_short3 ha' hb'; rw [he] at h; cases h
        | c :: io, h =>
          by_cases hc : c.toNat < 128
          · rw [readSize_three ha' hb' hc] at h; cases h
            exact ⟨[a, b, c], rfl, by
              simp [SizeField, Continued, groupsValue, hc, hb', ha']; omega⟩
          have hc' : 128 ≤ c.toNat := by omega
          have := lt256 c
          match io, h with
          | [], h => obtain ⟨e, he⟩ := readSize_short4 ha' hb' hc'; rw [he] at h; cases h
          | d :: io, h =>
            rw [readSize_four d ha' hb' hc'] at h; cases h
            exact ⟨[a, b, c, d], rfl, by
              simp [SizeField, Continued, groupsValue, hc', hb', ha']; omega⟩
  · rintro ⟨sz, rfl, h1, h2, h3, h4, h5⟩
    match sz, h1, h2, h3, h4, h5 with
    | [a], h1, h2, h3, h4, h5 =>
      have ha : a.toNat < 128 := by simpa using h5 (by simp)
      simp only [groupsValue] at h4
      rw [List.singleton_append, readSize_one ha, h4]
    | [a, b], h1, h2, h3, h4, h5 =>
      have hb : b.toNat < 128 := by simpa using h5 (by simp)
      have ha : 128 ≤ a.toNat := by simpa [Continued] using h3
      have := lt256 a
      simp only [groupsValue] at h4
      simp only [List.cons_append, List.nil_append]
      rw [readSize_two ha hb]
      have e : ∀ {x y : Nat}, x = y → (Except.ok (x, rest) : Py (Nat × Bytes)) = .ok (y, rest) :=
        fun h => by rw [h]
      exact e (by omega)
    | [a, b, c], h1, h2, h3, h4, h5 =>
      have hc : c.toNat < 128 := by simpa using h5 (by simp)
      have ha : 128 ≤ a.toNat ∧ 128 ≤ b.toNat := by simpa [Continued] using h3
      have := lt256 a
      have := lt256 b
      simp only [groupsValue] at h4
      simp only [List.cons_append, List.nil_append]
      rw [readSize_three ha.1 ha.2 hc]
      have e : ∀ {x y : Nat}, x = y → (Except.ok (x, rest) : Py (Nat × Bytes)) = .ok (y, rest) :=
        fun h => by rw [h]
      exact e (by omega)
    | [a, b, c, d], h1, h2, h3, h4, h5 =>
      have ha : 128 ≤ a.toNat ∧ 128 ≤ b.toNat ∧ 128 ≤ c.toNat := by simpa [Continued] using h3
      have := lt256 a
      have := lt256 b
      have := lt256 c
      simp only [groupsValue] at h4
      simp only [List.cons_append, List.nil_append]
      rw [readSize_four d ha.1 ha.2.1 ha.2.2]
      have e : ∀ {x y : Nat}, x = y → (Except.ok (x, rest) : Py (Nat × Bytes)) = .ok (y, rest) :=
        fun h => by rw [h]
      exact e (by omega)

/-! ### The id field -/

theorem readId_iff (io : Bytes) (id : Nat) (rest : Bytes) :
    readId io = .ok (id, rest) ↔ EncodableId id ∧ io = idBytes id ++ rest := by
  constructor
  · intro h
    match io, h with
    | [], h => simp [readId, readByte, bind, Except.bind] at h
    | a :: io, h =>
      have := lt256 a
      by_cases ha : a.toNat < 128
      · simp only [readId, readByte, bind, Except.bind, b7 ha, ne_eq, not_true, if_false] at h
        cases h
        exact ⟨.inl ha, by simp [idBytes, ha]⟩
      · match io, h with
        | [], h =>
          simp [readId, readByte, bind, Except.bind, b7' (Nat.not_lt.1 ha) (lt256 a)] at h
        | b :: io, h =>
          have := lt256 b
          simp only [readId, readByte, bind, Except.bind, b7' (Nat.not_lt.1 ha) (lt256 a), ne_eq,
            not_false_iff, if_true] at h
          have e : a.toNat ||| b.toNat <<< 8 = a.toNat + b.toNat * 256 :=
            or_shift (k := 8) (lt256 a)
          rw [e] at h
          cases h
          refine ⟨.inr ⟨by omega, by omega⟩, ?_⟩
          have e1 : (a.toNat + b.toNat * 256) % 256 = a.toNat := by omega
          have e2 : (a.toNat + b.toNat * 256) / 256 = b.toNat := by omega
          rw [idBytes, if_neg (by omega), e1, e2]
          simp
  · rintro ⟨h, rfl⟩
    have := readId_idField (idField_of_encodable h) rest
    simpa [idBytes] using this

/-! ### One record -/

theorem idBytes_length (id : Nat) : 1 ≤ (idBytes id).length ∧ (idBytes id).length ≤ 2 := by
  unfold idBytes; split <;> simp

/-- A record stands at the head of the stream exactly when the header reads and the payload fits. -/
theorem wire_iff (io : Bytes) (r : Record) (rest : Bytes) :
    (∃ w, WireRecord r w ∧ io = w ++ rest) ↔
      ∃ io1 io2, readId io = .ok (r.recId, io1) ∧ readSize io1 = .ok (r.data.length, io2) ∧
        io2 = r.data ++ rest := by
  constructor
  · rintro ⟨w, ⟨h1, sz, rfl, h2⟩, rfl⟩
    refine ⟨sz ++ (r.data ++ rest), r.data ++ rest, ?_, ?_, rfl⟩
    · rw [readId_iff]; exact ⟨h1, by simp⟩
    · rw [readSize_iff]; exact ⟨sz, rfl, h2⟩
  · rintro ⟨io1, io2, h1, h2, rfl⟩
    obtain ⟨k1, rfl⟩ := (readId_iff _ _ _).1 h1
    obtain ⟨sz, rfl, k2⟩ := (readSize_iff _ _ _).1 h2
    exact ⟨_, ⟨k1, sz, rfl, k2⟩, by simp⟩

theorem wire_length {r : Record} {w : Bytes} (h : WireRecord r w) : r.data.length + 2 ≤ w.length := by
  obtain ⟨_, sz, rfl, h2⟩ := h
  have := h2.1
  have := (idBytes_length r.recId).1
  simp; omega

/-- No two records can both stand at the head of a stream. -/
theorem wire_unique {r r' : Record} {w w' rest rest' : Bytes} (h : WireRecord r w)
    (h' : WireRecord r' w') (e : w ++ rest = w' ++ rest') : r = r' ∧ rest = rest' := by
  obtain ⟨a1, a2, h1, h2, h3⟩ := (wire_iff (w ++ rest) r rest).1 ⟨w, h, rfl⟩
  obtain ⟨b1, b2, k1, k2, k3⟩ := (wire_iff (w ++ rest) r' rest').1 ⟨w', h', e⟩
  rw [h1] at k1
  obtain ⟨e1, rfl⟩ : r.recId = r'.recId ∧ a1 = b1 := by simpa using k1
  rw [h2] at k2
  obtain ⟨e2, rfl⟩ : r.data.length = r'.data.length ∧ a2 = b2 := by simpa using k2
  rw [h3] at k3
  obtain ⟨e3, e4⟩ := List.append_inj k3 e2
  cases r; cases r'
  simp only at e1 e3
  exact ⟨by rw [e1, e3], e4⟩

theorem splits_unique {io : Bytes} {rs rs' : List Record} {t t' : Bytes} (h : Splits io rs t)
    (h' : Splits io rs' t') : rs = rs' ∧ t = t' := by
  induction h generalizing rs' t' with
  | stop t hs =>
    generalize hio : t = io at h'
    cases h' with
    | stop => exact ⟨rfl, rfl⟩
    | record hw hr => exact absurd ⟨_, hio.symm⟩ (hs _ _ hw)
  | @record r w io rs t hw hr ih =>
    generalize hio : w ++ io = io0 at h'
    cases h' with
    | stop _ hs => exact absurd ⟨_, hio⟩ (hs _ _ hw)
    | @record r' w' io' rs'' _ hw' hr' =>
      obtain ⟨rfl, rfl⟩ := wire_unique hw hw' hio
      obtain ⟨rfl, rfl⟩ := ih hr'
      exact ⟨rfl, rfl⟩

theorem splits_exists : ∀ (n : Nat) (io : Bytes), io.length ≤ n → ∃ rs t, Splits io rs t := by
  intro n
  induction n with
  | zero =>
    intro io hn
    refine ⟨[], io, .stop io ?_⟩
    intro r w hw hp
    have := wire_length hw
    have := hp.length_le
    omega
  | succ n ih =>
    intro io hn
    by_cases h : ∃ r w, WireRecord r w ∧ w <+: io
    · obtain ⟨r, w, hw, rest, rfl⟩ := h
      have := wire_length hw
      obtain ⟨rs, t, hs⟩ := ih rest (by simp at hn; omega)
      exact ⟨_, _, .record hw hs⟩
    · exact ⟨[], io, .stop io (fun r w hw hp => h ⟨r, w, hw, hp⟩)⟩

/-! ### The plain scanner -/

theorem scanBiff_wire {r : Record} {w : Bytes} (h : WireRecord r w) (rest : Bytes) :
    scanBiff none (w ++ rest) = r :: scanBiff none rest := by
  obtain ⟨a1, a2, h1, h2, rfl⟩ := (wire_iff (w ++ rest) r rest).1 ⟨w, h, rfl⟩
  have : scanStep none (w ++ rest) = .ok (.emit r rest) := by
    unfold scanStep
    simp only [h1, h2, bind, Except.bind, selectedPlain, if_true]
    by_cases hz : r.data.length = 0
    · have : r.data = [] := List.length_eq_zero_iff.1 hz
      rcases r with ⟨id, d⟩
      simp only at this; subst this
      simp
    · rw [if_pos hz]; simp
  rw [scanBiff_unfold, this]

theorem no_wire {io : Bytes} (h : ∀ r w, WireRecord r w → ¬ w <+: io) :
    (∃ e, readId io = .error e) ∨ (∃ id io1, readId io = .ok (id, io1) ∧
      ((∃ e, readSize io1 = .error e) ∨
        ∃ sz io2, readSize io1 = .ok (sz, io2) ∧ io2.length < sz)) := by
  rcases h1 : readId io with e | ⟨id, io1⟩
  · exact .inl ⟨e, rfl⟩
  right
  refine ⟨id, io1, rfl, ?_⟩
  rcases h2 : readSize io1 with e | ⟨sz, io2⟩
  · exact .inl ⟨e, rfl⟩
  right
  refine ⟨sz, io2, rfl, ?_⟩
  by_contra hlt
  obtain ⟨w, hw, e⟩ := (wire_iff io ⟨id, io2.take sz⟩ (io2.drop sz)).2
    ⟨io1, io2, h1, by rw [h2]; simp; omega, by simp⟩
  exact h _ w hw ⟨_, e.symm⟩

theorem scanBiff_splits {io : Bytes} {rs : List Record} {t : Bytes} (h : Splits io rs t) :
    scanBiff none io = rs := by
  induction h with
  | stop t hs =>
    rw [scanBiff_unfold]
    unfold scanStep
    rcases no_wire hs with ⟨e, h1⟩ | ⟨id, io1, h1, ⟨e, h2⟩ | ⟨sz, io2, h2, h3⟩⟩
    · simp [h1, bind, Except.bind]
    · simp [h1, h2, bind, Except.bind]
    · have hz : sz ≠ 0 := by omega
      have hm : ¬ min sz io2.length = sz := by omega
      simp [h1, h2, bind, Except.bind, selectedPlain, hz, hm]
  | record hw _ ih => rw [scanBiff_wire hw, ih]

/-! ### The block-wise scanner -/

/-- The bytes a chunk loses to records whose id has bit 15 set: for each one that is selected, as many
as its payload has. -/
def lostBytes (only : OnlySet) (rs : List Record) : Nat :=
  ((rs.filter fun r => selectedNumba only (toInt16 r.recId) && decide (0x8000 ≤ r.recId)).map
    fun r => r.data.length).sum

theorem encodableId_lt {id : Nat} (h : EncodableId id) : id < 0x10000 := by
  rcases h with h | h <;> omega

theorem toInt16_neg {n : Nat} (h : n < 0x10000) : toInt16 n < 0 ↔ 0x8000 ≤ n := by
  unfold toInt16; split <;> omega

theorem scanChunkLoop_any (only : OnlySet) {io : Bytes} {rs : List Record} {t : Bytes}
    (h : Splits io rs t) : ∀ (pre chunk : Bytes) (n : Nat), chunk = pre ++ io → io.length < n →
    scanChunkLoop chunk only n pre.length pre.length =
      (rs.filter (fun r => selectedNumba only (toInt16 r.recId))).map
        (fun r => (toInt16 r.recId, r.data.length, r.data)) ++
      [(-1, chunk.length - t.length, [])] := by
  induction h with
  | stop t hs =>
    intro pre chunk n hc hn
    cases n with
    | zero => simp at hn
    | succ n =>
      subst hc
      rw [scanChunkLoop, hdrAt_eq]
      simp only [List.drop_left]
      rcases no_wire hs with ⟨e, h1⟩ | ⟨id, io1, h1, ⟨e, h2⟩ | ⟨sz, io2, h2, h3⟩⟩
      · simp [h1]
      · simp [h1, h2]
      · have hl1 := readId_length h1
        have hl2 := readSize_length h2
        simp only [h1, h2]
        rw [if_pos (by simp; omega)]
        simp
  | @record r w io rs t hw hr ih =>
    intro pre chunk n hc hn
    cases n with
    | zero => simp at hn
    | succ n =>
      have hwl := wire_length hw
      obtain ⟨a1, a2, h1, h2, h3⟩ := (wire_iff (w ++ io) r io).1 ⟨w, hw, rfl⟩
      have := ih (pre ++ w) chunk n (by rw [hc]; simp) (by simp at hn; omega)
      rw [scanChunkLoop, hdrAt_eq]
      have hd : chunk.drop pre.length = w ++ io := by rw [hc, List.drop_left]
      rw [hd, h1]
      simp only [h2]
      have hcl : chunk.length = pre.length + w.length + io.length := by rw [hc]; simp; omega
      have ha2 : a2.length = r.data.length + io.length := by rw [h3]; simp
      have hoff : chunk.length - a2.length + r.data.length = (pre ++ w).length := by
        simp; omega
      rw [hoff, if_neg (by simp; omega), this]
      obtain ⟨_, sz, hwe, hsz⟩ := hw
      have hsl : pySlice chunk (chunk.length - a2.length) (pre ++ w).length = r.data := by
        unfold pySlice
        rw [hc, ← List.append_assoc, List.take_left]
        have e : (pre ++ w ++ io).length - a2.length =
            (pre ++ (idBytes r.recId ++ sz)).length := by
          rw [ha2, hwe]; simp; omega
        rw [e, hwe, ← List.append_assoc pre (idBytes r.recId ++ sz), List.drop_left]
      rw [hsl]
      cases hs : selectedNumba only (toInt16 r.recId) <;> simp [hs]

theorem consumeYields_any (rs : List Record) (he : ∀ r ∈ rs, r.recId < 0x10000) (k : Nat)
    (chunk : Bytes) :
    consumeYields (rs.map (fun r => (toInt16 r.recId, r.data.length, r.data)) ++ [(-1, k, [])])
      chunk = (chunk.drop (((rs.filter fun r => decide (0x8000 ≤ r.recId)).map
          fun r => r.data.length).sum + k), rs.filter fun r => decide (r.recId < 0x8000)) := by
  induction rs generalizing chunk with
  | nil => simp [consumeYields]
  | cons r l ih =>
    have hr := he r (by simp)
    have ihl := ih (fun r hr => he r (by simp [hr]))
    simp only [List.map_cons, List.cons_append, consumeYields]
    by_cases hn : 0x8000 ≤ r.recId
    · rw [if_pos ((toInt16_neg hr).2 hn), ihl]
      have hn' : ¬ r.recId < 0x8000 := by omega
      simp [hn, hn', Nat.add_assoc]
    · rw [if_neg (by rw [toInt16_neg hr]; exact hn), ihl]
      have hn' : r.recId < 0x8000 := by omega
      rw [toInt16_of_lt hn']
      simp [hn, hn']

theorem splits_ids {io : Bytes} {rs : List Record} {t : Bytes} (h : Splits io rs t) :
    ∀ r ∈ rs, EncodableId r.recId := by
  induction h with
  | stop => simp
  | record hw _ ih =>
    intro r hr
    rcases List.mem_cons.1 hr with rfl | hr
    · exact hw.1
    · exact ih r hr

theorem splits_tail {io : Bytes} {rs : List Record} {t : Bytes} (h : Splits io rs t) :
    ∃ p, io = p ++ t := by
  induction h with
  | stop t => exact ⟨[], rfl⟩
  | @record r w io rs t hw _ ih => obtain ⟨p, rfl⟩ := ih; exact ⟨w ++ p, by simp⟩

/-- One chunk, whatever it holds: the selected records with ids below `0x8000` come out, and the
chunk kept for the next round is what does not begin with a record, less the lost bytes. -/
theorem scanChunk_any (only : OnlySet) {chunk : Bytes} {rs : List Record} {t : Bytes}
    (h : Splits chunk rs t) :
    consumeYields (scanChunk chunk only) chunk =
      (t.drop (lostBytes only rs), rs.filter fun r =>
        selectedNumba only (toInt16 r.recId) && decide (r.recId < 0x8000)) := by
  have := scanChunkLoop_any only h [] chunk (chunk.length + 1) rfl (by omega)
  simp only [List.length_nil] at this
  unfold scanChunk
  rw [this, consumeYields_any _ (fun r hr =>
    encodableId_lt (splits_ids h r (List.mem_filter.1 hr |>.1)))]
  obtain ⟨p, rfl⟩ := splits_tail h
  simp only [List.filter_filter, lostBytes]
  have e : (p ++ t).length - t.length = p.length := by simp
  rw [e, Nat.add_comm, ← List.drop_drop, List.drop_left]
  simp only [Bool.and_comm]

/-- Records found at the head stay when more bytes arrive. -/
theorem splits_append {c : Bytes} {rs1 : List Record} {t1 : Bytes} (h : Splits c rs1 t1)
    {d : Bytes} {rs : List Record} {t : Bytes} (h' : Splits (c ++ d) rs t) :
    ∃ rs2, rs = rs1 ++ rs2 ∧ Splits (t1 ++ d) rs2 t := by
  induction h generalizing rs t with
  | stop t1 => exact ⟨rs, rfl, h'⟩
  | @record r w io rs1 t1 hw hr ih =>
    generalize hio : w ++ io ++ d = io0 at h'
    cases h' with
    | stop _ hs => exact absurd ⟨_, by rw [← hio, List.append_assoc]⟩ (hs _ _ hw)
    | @record r' w' io' rs'' _ hw' hr' =>
      rw [List.append_assoc] at hio
      obtain ⟨rfl, rfl⟩ := wire_unique hw hw' hio
      obtain ⟨rs2, rfl, h2⟩ := ih hr'
      exact ⟨rs2, rfl, h2⟩

theorem splits_none {io : Bytes} {t : Bytes} (h : Splits io [] t) : io = t := by
  cases h; rfl

theorem lostBytes_zero (only : OnlySet) {rs : List Record} (h : ∀ r ∈ rs, r.recId < 0x8000) :
    lostBytes only rs = 0 := by
  unfold lostBytes
  rw [List.filter_eq_nil_iff.2]
  · rfl
  · intro r hr
    have := h r hr
    simp; intro _; omega

/-- When all has been read, what does not begin with a record is looped over for ever. -/
theorem numbaRun_stuck (blk : Nat) (only : OnlySet) {t : Bytes} (h : Splits t [] t) :
    ∀ n, 1 ≤ n → numbaRun blk only n t [] = ([], decide (t = [])) := by
  intro n
  induction n with
  | zero => omega
  | succ n ih =>
    intro _
    rw [numbaRun]
    have hcy := scanChunk_any only h
    simp only [List.take_nil, List.append_nil, List.drop_nil]
    cases ht : t with
    | nil => simp
    | cons a b =>
      rw [← ht, hcy]
      have hne : t.isEmpty = false := by rw [ht]; rfl
      have hne' : t ≠ [] := by rw [ht]; simp
      simp only [hne, Bool.false_eq_true, if_false, List.filter_nil, lostBytes, List.map_nil,
        List.sum_nil, List.drop_zero, List.nil_append]
      cases n with
      | zero => simp [numbaRun, hne']
      | succ n => exact ih (by omega)

/-- The whole run, from any state, on ids below `0x8000`. -/
theorem numbaRun_any (blk : Nat) (hblk : 1 ≤ blk) (only : OnlySet) :
    ∀ (n : Nat) (chunk io : Bytes) (rs : List Record) (t : Bytes), Splits (chunk ++ io) rs t →
    (∀ r ∈ rs, r.recId < 0x8000) →
    (numbaRun blk only n chunk io).2 = (decide (t = []) && (numbaRun blk only n chunk io).2) ∧
    (io.length + 2 ≤ n → numbaRun blk only n chunk io =
      (rs.filter (fun r => selectedNumba only r.recId), decide (t = []))) := by
  intro n
  induction n with
  | zero => intro chunk io rs t _ _; exact ⟨by simp [numbaRun], by omega⟩
  | succ n ih =>
    intro chunk io rs t h hid
    have hsplit : chunk ++ io = (chunk ++ io.take blk) ++ io.drop blk := by simp
    rw [numbaRun]
    by_cases hemp : (chunk ++ io.take blk) = []
    · have hc : chunk = [] := by simp at hemp; exact hemp.1
      have hio : io = [] := by
        simp at hemp
        rcases hemp.2 with h | h
        · omega
        · exact h
      subst hc; subst hio
      have ht : t = [] ∧ rs = [] := by
        have h0 : Splits [] [] [] := .stop [] (fun r w hw hp => by
          have := wire_length hw
          have := hp.length_le
          simp only [List.length_nil] at this; omega)
        have := splits_unique h h0
        exact ⟨this.2, this.1⟩
      simp [ht]
    · obtain ⟨rs1, t1, h1⟩ := splits_exists _ (chunk ++ io.take blk) le_rfl
      rw [hsplit] at h
      obtain ⟨rs2, rfl, h2⟩ := splits_append h1 h
      have hid1 : ∀ r ∈ rs1, r.recId < 0x8000 := fun r hr => hid r (by simp [hr])
      have hid2 : ∀ r ∈ rs2, r.recId < 0x8000 := fun r hr => hid r (by simp [hr])
      have hemp' : (chunk ++ io.take blk).isEmpty = false := by
        cases hx : (chunk ++ io.take blk) with
        | nil => exact absurd hx hemp
        | cons => rfl
      have hcy := scanChunk_any only h1
      rw [lostBytes_zero only hid1, List.drop_zero] at hcy
      have hf : (rs1.filter fun r => selectedNumba only (toInt16 r.recId) &&
          decide (r.recId < 0x8000)) = rs1.filter fun r => selectedNumba only r.recId := by
        apply List.filter_congr
        intro r hr
        rw [toInt16_of_lt (hid1 r hr)]
        simp [hid1 r hr]
      rw [hf] at hcy
      obtain ⟨ihA, ihB⟩ := ih t1 (io.drop blk) rs2 t h2 hid2
      simp only [hemp', Bool.false_eq_true, if_false, hcy]
      refine ⟨ihA, ?_⟩
      intro hn
      by_cases hio : io = []
      · -- everything has been read: the rest is looped over
        subst hio
        have : rs2 = [] := by
          have hx : Splits (t1 ++ List.drop blk []) [] t1 := by
            rw [List.drop_nil, List.append_nil]
            have : ∀ {c : Bytes} {rs : List Record} {t : Bytes}, Splits c rs t → Splits t [] t := by
              intro c rs t h
              induction h with
              | stop t hs => exact .stop t hs
              | record _ _ ih => exact ih
            exact this h1
          exact (splits_unique h2 hx).1
        subst this
        have ht : t1 = t := by
          have := splits_none h2
          simpa using this
        subst ht
        rw [List.drop_nil, List.append_nil] at h2
        rw [List.drop_nil, numbaRun_stuck blk only h2 n (by simp at hn; omega)]
        simp
      · have : 0 < io.length := List.length_pos_iff.2 hio
        rw [ihB (by simp; omega)]
        simp

end Rxls
