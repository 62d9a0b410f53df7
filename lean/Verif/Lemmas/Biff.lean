import Verif.Spec.Biff
import Verif.Lemmas.Bits

/-! Lemmas about the BIFF12 writer and the plain scanner. -/

namespace Rxls

theorem packBs_ok : ∀ {l : List Nat}, (∀ i ∈ l, i < 256) → packBs l = .ok (l.map UInt8.ofNat)
  | [], _ => rfl
  | i :: l, h => by
    have hi : i < 256 := h i (by simp)
    have := packBs_ok (l := l) (fun j hj => h j (by simp [hj]))
    simp [packBs, packB, hi, this, bind, Except.bind]

theorem packBs_err : ∀ {l : List Nat}, (∃ i ∈ l, 256 ≤ i) → packBs l = .error .structError
  | [], h => by simp at h
  | i :: l, h => by
    by_cases hi : i < 256
    · have : ∃ j ∈ l, 256 ≤ j := by
        obtain ⟨j, hj, hl⟩ := h
        rcases List.mem_cons.1 hj with rfl | hj
        · omega
        · exact ⟨j, hj, hl⟩
      simp [packBs, packB, hi, packBs_err this, bind, Except.bind]
    · simp [packBs, packB, hi, bind, Except.bind]

/-- Closed form of the size field. -/
theorem dumpSz_eq (i : Nat) : dumpSz i =
    if i < 0x80 then .ok [UInt8.ofNat i]
    else if i < 0x4000 then .ok [UInt8.ofNat (i % 128 + 128), UInt8.ofNat (i / 128)]
    else if i < 0x200000 then
      .ok [UInt8.ofNat (i % 128 + 128), UInt8.ofNat (i / 128 % 128 + 128), UInt8.ofNat (i / 16384)]
    else if i < 0x20000000 then
      .ok [UInt8.ofNat (i % 128 + 128), UInt8.ofNat (i / 128 % 128 + 128),
           UInt8.ofNat (i / 16384 % 128 + 128), UInt8.ofNat (i / 2097152)]
    else .error .structError := by
  unfold dumpSz
  simp only [and_127, mod_or_128, Nat.shiftRight_eq_div_pow, Nat.reducePow]
  split
  · rw [packBs_ok] <;> simp; omega
  split
  · rw [packBs_ok] <;> simp; omega
  split
  · rw [packBs_ok] <;> simp; omega
  split
  · rw [packBs_ok] <;> simp; omega
  · rw [packBs_err]; simp; omega

theorem sizeField_eq (i : Nat) : sizeField i = dumpSz i := rfl

/-- The bit 0x80 of a number, arithmetically. -/
theorem and_128_eq_zero_iff (x : Nat) : x &&& 0x80 = 0 ↔ x / 128 % 2 = 0 := by
  constructor
  · intro h
    rcases Nat.mod_two_eq_zero_or_one (x / 128) with h' | h'
    · exact h'
    · exact absurd h (and_pow_ne_zero_of_odd (k := 7) (by simpa using h'))
  · intro h
    exact and_pow_eq_zero_of_even (k := 7) (by simpa using h)

theorem readSize_dumpSz {i : Nat} {b : Bytes} (h : dumpSz i = .ok b) (rest : Bytes) :
    readSize (b ++ rest) = .ok (i, rest) := by
  rw [dumpSz_eq] at h
  split at h
  · rename_i hi
    cases h
    have h1 : (UInt8.ofNat i).toNat = i := toNat_ofNat_lt (by omega)
    have h2 : i &&& 0x80 = 0 := and_pow_eq_zero (k := 7) (by simpa using hi)
    generalize UInt8.ofNat i = c at *
    simp [readSize, readByte, bind, Except.bind, h1, h2]
  split at h
  · rename_i hi0 hi
    cases h
    have h1 : (UInt8.ofNat (i % 128 + 128)).toNat = i % 128 + 128 := toNat_ofNat_lt (by omega)
    have h1' : (UInt8.ofNat (i / 128)).toNat = i / 128 := toNat_ofNat_lt (by omega)
    have h2 : (i % 128 + 128) &&& 0x80 ≠ 0 := and_pow_ne_zero (k := 7) (by simp) (by simp; omega)
    have h3 : (i % 128 + 128) ^^^ 0x80 = i % 128 := by
      exact (xor_pow (k := 7) (by simp) (by simp; omega)).trans (by simp)
    have h4 : i % 128 ||| ((i / 128) <<< 7) = i := by
      rw [or_shift (by simp; omega)]; simp; omega
    have h5 : i &&& 0x4000 = 0 := and_pow_eq_zero (k := 14) (by simpa using hi)
    generalize UInt8.ofNat (i % 128 + 128) = c at *
    generalize UInt8.ofNat (i / 128) = c' at *
    simp [readSize, readByte, bind, Except.bind, h1, h1', h2, h3, h4, h5]
  split at h
  · rename_i hi0 hi1 hi
    cases h
    have h1 : (UInt8.ofNat (i % 128 + 128)).toNat = i % 128 + 128 := toNat_ofNat_lt (by omega)
    have h1' : (UInt8.ofNat (i / 128 % 128 + 128)).toNat = i / 128 % 128 + 128 :=
      toNat_ofNat_lt (by omega)
    have h1'' : (UInt8.ofNat (i / 16384)).toNat = i / 16384 := toNat_ofNat_lt (by omega)
    have h2 : (i % 128 + 128) &&& 0x80 ≠ 0 := and_pow_ne_zero (k := 7) (by simp) (by simp; omega)
    have h3 : (i % 128 + 128) ^^^ 0x80 = i % 128 := by
      exact (xor_pow (k := 7) (by simp) (by simp; omega)).trans (by simp)
    have h4 : i % 128 ||| ((i / 128 % 128 + 128) <<< 7) = i % 16384 + 16384 := by
      rw [or_shift (by simp; omega)]; simp; omega
    have h5 : (i % 16384 + 16384) &&& 0x4000 ≠ 0 :=
      and_pow_ne_zero (k := 14) (by simp) (by simp; omega)
    have h6 : (i % 16384 + 16384) ^^^ 0x4000 = i % 16384 := by
      exact (xor_pow (k := 14) (by simp) (by simp; omega)).trans (by simp)
    have h7 : i % 16384 ||| ((i / 16384) <<< 14) = i := by
      rw [or_shift (by simp; omega)]; simp; omega
    have h8 : i &&& 0x200000 = 0 := and_pow_eq_zero (k := 21) (by simpa using hi)
    generalize UInt8.ofNat (i % 128 + 128) = c at *
    generalize UInt8.ofNat (i / 128 % 128 + 128) = c' at *
    generalize UInt8.ofNat (i / 16384) = c'' at *
    simp [readSize, readByte, bind, Except.bind, h1, h1', h1'', h2, h3, h4, h5, h6, h7, h8]
  split at h
  · rename_i hi0 hi1 hi2 hi
    cases h
    have h1 : (UInt8.ofNat (i % 128 + 128)).toNat = i % 128 + 128 := toNat_ofNat_lt (by omega)
    have h1' : (UInt8.ofNat (i / 128 % 128 + 128)).toNat = i / 128 % 128 + 128 :=
      toNat_ofNat_lt (by omega)
    have h1'' : (UInt8.ofNat (i / 16384 % 128 + 128)).toNat = i / 16384 % 128 + 128 :=
      toNat_ofNat_lt (by omega)
    have h1''' : (UInt8.ofNat (i / 2097152)).toNat = i / 2097152 := toNat_ofNat_lt (by omega)
    have h2 : (i % 128 + 128) &&& 0x80 ≠ 0 := and_pow_ne_zero (k := 7) (by simp) (by simp; omega)
    have h3 : (i % 128 + 128) ^^^ 0x80 = i % 128 := by
      exact (xor_pow (k := 7) (by simp) (by simp; omega)).trans (by simp)
    have h4 : i % 128 ||| ((i / 128 % 128 + 128) <<< 7) = i % 16384 + 16384 := by
      rw [or_shift (by simp; omega)]; simp; omega
    have h5 : (i % 16384 + 16384) &&& 0x4000 ≠ 0 :=
      and_pow_ne_zero (k := 14) (by simp) (by simp; omega)
    have h6 : (i % 16384 + 16384) ^^^ 0x4000 = i % 16384 := by
      exact (xor_pow (k := 14) (by simp) (by simp; omega)).trans (by simp)
    have h7 : i % 16384 ||| ((i / 16384 % 128 + 128) <<< 14) = i % 2097152 + 2097152 := by
      rw [or_shift (by simp; omega)]; simp; omega
    have h8 : (i % 2097152 + 2097152) &&& 0x200000 ≠ 0 :=
      and_pow_ne_zero (k := 21) (by simp) (by simp; omega)
    have h9 : (i % 2097152 + 2097152) ^^^ 0x200000 = i % 2097152 := by
      exact (xor_pow (k := 21) (by simp) (by simp; omega)).trans (by simp)
    have h10 : i % 2097152 ||| ((i / 2097152) <<< 21) = i := by
      rw [or_shift (by simp; omega)]; simp; omega
    generalize UInt8.ofNat (i % 128 + 128) = c at *
    generalize UInt8.ofNat (i / 128 % 128 + 128) = c' at *
    generalize UInt8.ofNat (i / 16384 % 128 + 128) = c'' at *
    generalize UInt8.ofNat (i / 2097152) = c''' at *
    simp [readSize, readByte, bind, Except.bind, h1, h1', h1'', h1''', h2, h3, h4, h5, h6, h7, h8,
      h9, h10]
  · cases h

/-! ### The id field -/

theorem idField_of_encodable {id : Nat} (h : EncodableId id) :
    idField id = .ok (if id < 0x80 then [UInt8.ofNat id]
      else [UInt8.ofNat (id % 256), UInt8.ofNat (id / 256)]) := by
  unfold idField
  rcases h with h | ⟨h1, h2⟩
  · have : id &&& 0x80 = 0 := (and_128_eq_zero_iff id).2 (by omega)
    rw [if_neg (by simp [this]), packBs_ok (by simp; omega), if_pos h]; rfl
  · have : ¬ (id &&& 0x80 = 0) := fun h => by
      have := (and_128_eq_zero_iff id).1 h; omega
    rw [if_pos this, if_neg (by omega)]
    simp [packH, h2]

theorem idField_err {id : Nat} (h : ¬ EncodableId id) : idField id = .error .structError := by
  unfold idField
  unfold EncodableId at h
  split
  · rename_i hb
    have : id / 128 % 2 = 1 := by
      rcases Nat.mod_two_eq_zero_or_one (id / 128) with h' | h'
      · exact absurd ((and_128_eq_zero_iff id).2 h') hb
      · exact h'
    simp only [packH]
    rw [if_neg (by omega)]
  · rename_i hb
    have := (and_128_eq_zero_iff id).1 (by simpa using hb)
    rw [packBs_err]
    simp; omega

theorem readId_idField {id : Nat} {b : Bytes} (h : idField id = .ok b) (rest : Bytes) :
    readId (b ++ rest) = .ok (id, rest) := by
  by_cases he : EncodableId id
  · rw [idField_of_encodable he] at h
    cases h
    split
    · rename_i hi
      have h1 : (UInt8.ofNat id).toNat = id := toNat_ofNat_lt (by omega)
      have h2 : id &&& 0x80 = 0 := and_pow_eq_zero (k := 7) (by simpa using hi)
      generalize UInt8.ofNat id = c at *
      simp [readId, readByte, bind, Except.bind, h1, h2]
    · rename_i hi
      rcases he with he | ⟨he1, he2⟩
      · omega
      have h1 : (UInt8.ofNat (id % 256)).toNat = id % 256 := toNat_ofNat_lt (by omega)
      have h1' : (UInt8.ofNat (id / 256)).toNat = id / 256 := toNat_ofNat_lt (by omega)
      have h2 : ¬ (id % 256 &&& 0x80 = 0) := fun h => by
        have := (and_128_eq_zero_iff (id % 256)).1 h; omega
      have h3 : id % 256 ||| ((id / 256) <<< 8) = id := by
        rw [or_shift (by simp; omega)]; simp; omega
      generalize UInt8.ofNat (id % 256) = c at *
      generalize UInt8.ofNat (id / 256) = c' at *
      simp [readId, readByte, bind, Except.bind, h1, h1', h2, h3]
  · rw [idField_err he] at h; cases h

/-! ### as_binary -/

theorem dumpSz_ok_iff (i : Nat) : (∃ b, dumpSz i = .ok b) ↔ i < 2 ^ 29 := by
  rw [dumpSz_eq]
  constructor
  · intro h
    obtain ⟨b, h⟩ := h
    repeat' split at h
    all_goals first | omega | cases h
  · intro h
    repeat' split
    all_goals first | exact ⟨_, rfl⟩ | omega

theorem dumpSz_err {i : Nat} (h : 2 ^ 29 ≤ i) : dumpSz i = .error .structError := by
  rw [dumpSz_eq]
  repeat' split
  all_goals first | rfl | omega

theorem asBinary_ok {r : Record} (h : Encodable r) :
    ∃ a b, idField r.recId = .ok a ∧ dumpSz r.data.length = .ok b ∧
      r.asBinary = .ok (a ++ b ++ r.data) := by
  obtain ⟨b, hb⟩ := (dumpSz_ok_iff r.data.length).2 h.2
  refine ⟨_, b, idField_of_encodable h.1, hb, ?_⟩
  simp only [Record.asBinary, sizeField_eq, idField_of_encodable h.1, hb]
  rfl

theorem asBinary_err {r : Record} (h : ¬ Encodable r) : r.asBinary = .error .structError := by
  by_cases h1 : EncodableId r.recId
  · have h2 : 2 ^ 29 ≤ r.data.length := by
      rw [← Nat.not_lt]; exact fun h2 => h ⟨h1, h2⟩
    simp only [Record.asBinary, sizeField_eq, idField_of_encodable h1, dumpSz_err h2]
    rfl
  · simp only [Record.asBinary, idField_err h1]
    rfl

theorem asBinary_split {r : Record} {w : Bytes} (h : r.asBinary = .ok w) :
    Encodable r ∧ ∃ a b, idField r.recId = .ok a ∧ dumpSz r.data.length = .ok b ∧
      w = a ++ b ++ r.data := by
  by_cases he : Encodable r
  · obtain ⟨a, b, h1, h2, h3⟩ := asBinary_ok he
    rw [h3] at h
    cases h
    exact ⟨he, a, b, h1, h2, rfl⟩
  · rw [asBinary_err he] at h; cases h

theorem dumpSz_length {i : Nat} {b : Bytes} (h : dumpSz i = .ok b) :
    b.length = if i < 2 ^ 7 then 1 else if i < 2 ^ 14 then 2 else if i < 2 ^ 21 then 3 else 4 := by
  rw [dumpSz_eq] at h
  simp only [Nat.reducePow]
  repeat' split at h
  all_goals first
    | (cases h; simp [*])
    | cases h

theorem idField_length {id : Nat} {b : Bytes} (h : idField id = .ok b) :
    b.length = if id < 0x80 then 1 else 2 := by
  by_cases he : EncodableId id
  · rw [idField_of_encodable he] at h
    cases h
    split <;> rfl
  · rw [idField_err he] at h; cases h

theorem asBinary_length {r : Record} {w : Bytes} (h : r.asBinary = .ok w) :
    w.length = wireLength r := by
  obtain ⟨_, a, b, ha, hb, rfl⟩ := asBinary_split h
  simp only [List.length_append, dumpSz_length hb, idField_length ha, wireLength]

/-! ### One step of the plain scanner -/

theorem scanStep_asBinary {r : Record} {w : Bytes} (h : r.asBinary = .ok w) (only : OnlySet)
    (rest : Bytes) :
    scanStep only (w ++ rest) =
      .ok (if selectedPlain only r.recId then .emit r rest else .skip rest) := by
  obtain ⟨_, a, b, ha, hb, rfl⟩ := asBinary_split h
  unfold scanStep
  rw [List.append_assoc, List.append_assoc, readId_idField ha]
  simp only [bind, Except.bind]
  rw [readSize_dumpSz hb]
  simp only []
  obtain ⟨id, data⟩ := r
  by_cases hz : data.length = 0
  · have : data = [] := List.length_eq_zero_iff.1 hz
    subst this
    cases selectedPlain only id <;> simp
  · cases selectedPlain only id <;> simp [hz]

theorem readByte_length {io io' : Bytes} {n : Nat} (h : readByte io = .ok (n, io')) :
    io'.length + 1 = io.length := by
  cases io with
  | nil => simp [readByte] at h
  | cons b bs => simp [readByte] at h; simp [h.2]

theorem readId_length {io io' : Bytes} {n : Nat} (h : readId io = .ok (n, io')) :
    io'.length + 1 ≤ io.length := by
  unfold readId at h
  simp only [bind, Except.bind] at h
  split at h
  · cases h
  rename_i v hv
  have h1 := readByte_length hv
  split at h
  · split at h
    · cases h
    rename_i v2 hv2
    have h2 := readByte_length hv2
    cases h
    omega
  · cases h; omega

theorem readSize_length {io io' : Bytes} {n : Nat} (h : readSize io = .ok (n, io')) :
    io'.length + 1 ≤ io.length := by
  unfold readSize at h
  simp only [bind, Except.bind] at h
  split at h
  · cases h
  rename_i v hv
  have h1 := readByte_length hv
  split at h
  · split at h
    · cases h
    rename_i v2 hv2
    have h2 := readByte_length hv2
    split at h
    · split at h
      · cases h
      rename_i v3 hv3
      have h3 := readByte_length hv3
      split at h
      · split at h
        · cases h
        rename_i v4 hv4
        have h4 := readByte_length hv4
        cases h; omega
      · cases h; omega
    · cases h; omega
  · cases h; omega

/-- Closed description of one step in terms of the header. -/
theorem scanStep_cases (io : Bytes) :
    (∃ e, ∀ only', scanStep only' io = .error e) ∨
    (∃ (id sz : Nat) (io' : Bytes), io'.length + 2 ≤ io.length ∧
      ∀ only', scanStep only' io = .ok (
        if selectedPlain only' id then
          if io'.length < sz then .brk else .emit ⟨id, io'.take sz⟩ (io'.drop sz)
        else .skip (io'.drop sz))) := by
  unfold scanStep
  rcases hid : readId io with e | ⟨id, io1⟩
  · left; exact ⟨e, fun only' => rfl⟩
  rcases hsz : readSize io1 with e | ⟨sz, io2⟩
  · left; exact ⟨e, fun only' => by simp [bind, Except.bind, hsz]⟩
  right
  have h1 := readId_length hid
  have h2 := readSize_length hsz
  refine ⟨id, sz, io2, by omega, fun only' => ?_⟩
  simp only [bind, Except.bind, hsz]
  cases selectedPlain only' id
  · by_cases hz : sz = 0
    · subst hz; simp
    · simp [hz]
  · by_cases hz : sz = 0
    · subst hz; simp
    · by_cases hl : io2.length < sz
      · have : ¬ (min sz io2.length = sz) := by omega
        simp [hz, hl, this]
      · have : min sz io2.length = sz := by omega
        simp [hz, hl, this]

theorem scanFuel_mono (only : OnlySet) : ∀ (n m : Nat) (io : Bytes),
    io.length < n → io.length < m → scanFuel only n io = scanFuel only m io ∧
      (scanFuel only n io).isSome := by
  intro n
  induction n with
  | zero => intro m io h; omega
  | succ n ih =>
    intro m io h1 h2
    cases m with
    | zero => omega
    | succ m =>
      simp only [scanFuel]
      rcases scanStep_cases io with ⟨e, he⟩ | ⟨id, sz, io', hl, hs⟩
      · rw [he only]; simp
      · rw [hs only]
        have hd : (io'.drop sz).length ≤ io'.length := by simp
        cases selectedPlain only id
        · simpa using ih m (io'.drop sz) (by omega) (by omega)
        · have := ih m (io'.drop sz) (by omega) (by omega)
          by_cases hlt : io'.length < sz
          · simp [hlt]
          · simp [hlt, this.1, this.2]
            rw [← this.1]; exact this.2

theorem scanFuel_eq (only : OnlySet) {n : Nat} {io : Bytes} (h : io.length < n) :
    scanFuel only n io = some (scanBiff only io) := by
  unfold scanBiff
  have h1 := scanFuel_mono only n (io.length + 1) io h (by omega)
  rw [← h1.1]
  cases hx : scanFuel only n io with
  | none => rw [hx] at h1; simp at h1
  | some v => rfl

/-- Unfolding equation of the plain scanner. -/
theorem scanBiff_unfold (only : OnlySet) (io : Bytes) :
    scanBiff only io = match scanStep only io with
      | .error _ => []
      | .ok .brk => []
      | .ok (.emit r io') => r :: scanBiff only io'
      | .ok (.skip io') => scanBiff only io' := by
  have h := scanFuel_eq only (n := io.length + 1) (io := io) (by omega)
  apply Option.some.inj
  rw [← h, scanFuel]
  rcases scanStep_cases io with ⟨e, he⟩ | ⟨id, sz, io', hl, hs⟩
  · rw [he only]
  · rw [hs only]
    have hd : (io'.drop sz).length ≤ io'.length := by simp
    have hr := scanFuel_eq only (n := io.length) (io := io'.drop sz) (by omega)
    cases hsel : selectedPlain only id
    · simpa using hr
    · by_cases hlt : io'.length < sz
      · simp [hlt]
      · simp [hlt, hr]


theorem scanBiff_nil (only : OnlySet) : scanBiff only [] = [] := by
  rw [scanBiff_unfold]; rfl

theorem scanBiff_asBinary {r : Record} {w : Bytes} (h : r.asBinary = .ok w) (only : OnlySet)
    (rest : Bytes) : scanBiff only (w ++ rest) =
      if selectedPlain only r.recId then r :: scanBiff only rest else scanBiff only rest := by
  rw [scanBiff_unfold, scanStep_asBinary h]
  cases selectedPlain only r.recId <;> simp

/-! ### Prefixes -/

/-- A reader either fails on `p` or succeeds identically on every extension of `p`. -/
def PrefixReader (P : Bytes → Py (Nat × Bytes)) : Prop :=
  ∀ p, (∃ e, P p = .error e) ∨ (∃ v p', P p = .ok (v, p') ∧ ∀ q, P (p ++ q) = .ok (v, p' ++ q))

theorem readByte_prefix : PrefixReader readByte := by
  intro p
  cases p with
  | nil => left; exact ⟨_, rfl⟩
  | cons b bs => right; exact ⟨b.toNat, bs, rfl, fun q => rfl⟩

theorem readId_prefix : PrefixReader readId := by
  intro p
  unfold readId
  rcases readByte_prefix p with ⟨e, h⟩ | ⟨v, p1, h, h'⟩
  · left; exact ⟨e, by simp [h, bind, Except.bind]⟩
  by_cases hb : v &&& 0x80 = 0
  · right; exact ⟨v, p1, by simp [h, hb, bind, Except.bind], fun q => by
      simp [h', hb, bind, Except.bind]⟩
  rcases readByte_prefix p1 with ⟨e, h2⟩ | ⟨v2, p2, h2, h2'⟩
  · left; exact ⟨e, by simp [h, hb, h2, bind, Except.bind]⟩
  · right; exact ⟨_, p2, by simp [h, hb, h2, bind, Except.bind]; rfl, fun q => by
      simp [h', hb, h2', bind, Except.bind]⟩

theorem readSize_prefix : PrefixReader readSize := by
  intro p
  unfold readSize
  rcases readByte_prefix p with ⟨e, h⟩ | ⟨v, p1, h, h'⟩
  · left; exact ⟨e, by simp [h, bind, Except.bind]⟩
  by_cases hb : v &&& 0x80 = 0
  · right; exact ⟨v, p1, by simp [h, hb, bind, Except.bind], fun q => by
      simp [h', hb, bind, Except.bind]⟩
  rcases readByte_prefix p1 with ⟨e, h2⟩ | ⟨v2, p2, h2, h2'⟩
  · left; exact ⟨e, by simp [h, hb, h2, bind, Except.bind]⟩
  by_cases hb2 : (v ^^^ 0x80 ||| v2 <<< 7) &&& 0x4000 = 0
  · right; exact ⟨_, p2, by simp [h, hb, h2, hb2, bind, Except.bind]; rfl, fun q => by
      simp [h', hb, h2', hb2, bind, Except.bind]⟩
  rcases readByte_prefix p2 with ⟨e, h3⟩ | ⟨v3, p3, h3, h3'⟩
  · left; exact ⟨e, by simp [h, hb, h2, hb2, h3, bind, Except.bind]⟩
  by_cases hb3 : ((v ^^^ 0x80 ||| v2 <<< 7) ^^^ 0x4000 ||| v3 <<< 14) &&& 0x200000 = 0
  · right; exact ⟨_, p3, by simp [h, hb, h2, hb2, h3, hb3, bind, Except.bind]; rfl, fun q => by
      simp [h', hb, h2', hb2, h3', hb3, bind, Except.bind]⟩
  rcases readByte_prefix p3 with ⟨e, h4⟩ | ⟨v4, p4, h4, h4'⟩
  · left; exact ⟨e, by simp [h, hb, h2, hb2, h3, hb3, h4, bind, Except.bind]⟩
  · right; exact ⟨_, p4, by simp [h, hb, h2, hb2, h3, hb3, h4, bind, Except.bind]; rfl, fun q => by
      simp [h', hb, h2', hb2, h3', hb3, h4', bind, Except.bind]⟩

/-- A proper prefix of one record's encoding yields nothing. -/
theorem scanBiff_partial {r : Record} {w p q : Bytes} (h : r.asBinary = .ok w) (hw : w = p ++ q)
    (hq : q ≠ []) (only : OnlySet) : scanBiff only p = [] := by
  obtain ⟨_, a, b, ha, hb, rfl⟩ := asBinary_split h
  have hql : 0 < q.length := List.length_pos_iff.2 hq
  rw [scanBiff_unfold]
  unfold scanStep
  rcases readId_prefix p with ⟨e, h1⟩ | ⟨v, p1, h1, h1'⟩
  · simp [h1, bind, Except.bind]
  have e1 := h1' q
  rw [← hw, List.append_assoc, readId_idField ha] at e1
  obtain ⟨rfl, e1'⟩ : r.recId = v ∧ b ++ r.data = p1 ++ q := by simpa using e1
  rcases readSize_prefix p1 with ⟨e, h2⟩ | ⟨v2, p2, h2, h2'⟩
  · simp [h1, h2, bind, Except.bind]
  have e2 := h2' q
  rw [← e1', readSize_dumpSz hb] at e2
  obtain ⟨rfl, e2'⟩ : r.data.length = v2 ∧ r.data = p2 ++ q := by simpa using e2
  have hl : p2.length < r.data.length := by
    have := congrArg List.length e2'
    simp at this; omega
  simp only [h1, h2, bind, Except.bind]
  have hz : r.data.length ≠ 0 := by omega
  have hm : ¬ (min r.data.length p2.length = r.data.length) := by omega
  have hd : p2.drop r.data.length = [] := by simp; omega
  cases selectedPlain only r.recId
  · simp only [Bool.false_eq_true, if_false]
    rw [if_pos hz, hd]
    exact scanBiff_nil only
  · simp only [if_true]
    rw [if_pos hz]
    simp [hm]

/-! ### Streams -/

/-- Concatenated encodings. -/
def encodeAll : List Record → Py Bytes
  | [] => .ok []
  | r :: rs => do
    let w ← r.asBinary
    let ws ← encodeAll rs
    .ok (w ++ ws)

theorem encodeAll_cons {r : Record} {rs : List Record} {out : Bytes}
    (h : encodeAll (r :: rs) = .ok out) :
    ∃ w ws, r.asBinary = .ok w ∧ encodeAll rs = .ok ws ∧ out = w ++ ws := by
  simp only [encodeAll, bind, Except.bind] at h
  split at h
  · cases h
  rename_i w hw
  split at h
  · cases h
  rename_i ws hws
  cases h
  exact ⟨w, ws, hw, hws, rfl⟩

theorem writeAll_eq (rs : List Record) (io : Bytes) :
    writeAll rs io = (encodeAll rs).map (io ++ ·) := by
  induction rs generalizing io with
  | nil => simp [writeAll, encodeAll, Except.map]
  | cons r rs ih =>
    simp only [writeAll, encodeAll, Record.dump, bind, Except.bind]
    cases hr : r.asBinary with
    | error e => rfl
    | ok w =>
      simp only [ih]
      cases encodeAll rs <;> simp [Except.map]

theorem encodeAll_isOk (rs : List Record) (h : ∀ r ∈ rs, Encodable r) :
    ∃ out, encodeAll rs = .ok out := by
  induction rs with
  | nil => exact ⟨[], rfl⟩
  | cons r rs ih =>
    obtain ⟨ws, hws⟩ := ih (fun r hr => h r (by simp [hr]))
    obtain ⟨a, b, _, _, hw⟩ := asBinary_ok (h r (by simp))
    exact ⟨_, by simp only [encodeAll, hw, hws, bind, Except.bind]; rfl⟩

theorem scanBiff_encodeAll (rs : List Record) {out : Bytes} (h : encodeAll rs = .ok out)
    (only : OnlySet) (rest : Bytes) :
    scanBiff only (out ++ rest) =
      rs.filter (fun r => selectedPlain only r.recId) ++ scanBiff only rest := by
  induction rs generalizing out with
  | nil => cases h; simp
  | cons r rs ih =>
    obtain ⟨w, ws, hw, hws, rfl⟩ := encodeAll_cons h
    rw [List.append_assoc, scanBiff_asBinary hw, ih hws]
    cases hs : selectedPlain only r.recId <;> simp [hs]

theorem scanBiff_take (rs : List Record) {out : Bytes} (h : encodeAll rs = .ok out) (k : Nat) :
    scanBiff none (out.take k) = wholeBefore k rs := by
  induction rs generalizing out k with
  | nil => cases h; simp [wholeBefore, scanBiff_nil]
  | cons r rs ih =>
    obtain ⟨w, ws, hw, hws, rfl⟩ := encodeAll_cons h
    have hl := asBinary_length hw
    simp only [wholeBefore]
    by_cases hk : wireLength r ≤ k
    · rw [if_pos hk, List.take_append, List.take_of_length_le (by omega), scanBiff_asBinary hw,
        ih hws, hl]
      simp [selectedPlain]
    · rw [if_neg hk, List.take_append_of_le_length (by omega)]
      refine scanBiff_partial hw (q := w.drop k) (by simp) ?_ none
      intro hd
      have := List.drop_eq_nil_iff.1 hd
      omega

theorem scanBiff_filter (only : OnlySet) : ∀ (n : Nat) (io : Bytes), io.length < n →
    scanBiff only io = (scanBiff none io).filter (fun r => selectedPlain only r.recId) := by
  intro n
  induction n with
  | zero => intro io h; omega
  | succ n ih =>
    intro io hn
    rw [scanBiff_unfold only, scanBiff_unfold none]
    rcases scanStep_cases io with ⟨e, he⟩ | ⟨id, sz, io', hl, hs⟩
    · rw [he only, he none]; rfl
    · rw [hs only, hs none]
      have hd : (io'.drop sz).length ≤ io'.length := by simp
      have hi := ih (io'.drop sz) (by omega)
      have hnone : selectedPlain none id = true := rfl
      simp only [hnone, if_true]
      by_cases hlt : io'.length < sz
      · have hnil : io'.drop sz = [] := by simp; omega
        cases selectedPlain only id <;> simp [hlt, hnil, scanBiff_nil]
      · cases hsel : selectedPlain only id <;> simp [hlt, hsel, hi]

end Rxls
