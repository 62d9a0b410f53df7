import Verif.Spec.Utf16
import Verif.Lemmas.Bits

/-! Lemmas about the UTF-16 codec. -/

namespace Rxls

theorem char_valid (c : Char) : c.toNat < 0xD800 ∨ (0xDFFF < c.toNat ∧ c.toNat < 0x110000) := c.valid

theorem char_ofNat_toNat (c : Char) : Char.ofNat c.toNat = c := Char.ofNat_toNat c

theorem char_toNat_ofNat {n : Nat} (h : n < 0xD800 ∨ (0xDFFF < n ∧ n < 0x110000)) :
    (Char.ofNat n).toNat = n := by
  have hv : n.isValidChar := h
  rw [Char.ofNat, dif_pos hv]
  show (Char.ofNatAux n hv).val.toNat = n
  simp [Char.ofNatAux, UInt32.toNat]

theorem encodeWords_eq (s : Str) : encodeWords s = utf16 s := by
  induction s with
  | nil => rfl
  | cons c s ih => simp only [encodeWords, ih, utf16, List.flatMap_cons, units16]

theorem units16_lt {c : Char} {w : Nat} (h : w ∈ units16 c) : w < 0x10000 := by
  have := char_valid c
  unfold units16 at h
  split at h <;> simp at h <;> omega

theorem utf16_lt {s : Str} {w : Nat} (h : w ∈ utf16 s) : w < 0x10000 := by
  obtain ⟨c, _, hc⟩ := List.mem_flatMap.1 h
  exact units16_lt hc

theorem wordsLE_bytes {ws : List Nat} (h : ∀ w ∈ ws, w < 0x10000) :
    wordsLE (bytesLE ws) = .ok ws := by
  induction ws with
  | nil => rfl
  | cons w ws ih =>
    have hw := h w (by simp)
    have e1 : (UInt8.ofNat (w % 256)).toNat = w % 256 := toNat_ofNat_lt (by omega)
    have e2 : (UInt8.ofNat (w / 256)).toNat = w / 256 := toNat_ofNat_lt (by omega)
    have := ih (fun w hw => h w (by simp [hw]))
    simp only [bytesLE, List.flatMap_cons, List.cons_append, List.nil_append, wordsLE] at this ⊢
    rw [this, e1, e2]
    simp [bind, Except.bind]; omega

theorem wordsBE_bytes {ws : List Nat} (h : ∀ w ∈ ws, w < 0x10000) :
    wordsBE (ws.flatMap fun w => [UInt8.ofNat (w / 256), UInt8.ofNat (w % 256)]) = .ok ws := by
  induction ws with
  | nil => rfl
  | cons w ws ih =>
    have hw := h w (by simp)
    have e1 : (UInt8.ofNat (w % 256)).toNat = w % 256 := toNat_ofNat_lt (by omega)
    have e2 : (UInt8.ofNat (w / 256)).toNat = w / 256 := toNat_ofNat_lt (by omega)
    have := ih (fun w hw => h w (by simp [hw]))
    simp only [List.flatMap_cons, List.cons_append, List.nil_append, wordsBE] at this ⊢
    rw [this, e1, e2]
    simp [bind, Except.bind]; omega

theorem utf16LE_eq (s : Str) : utf16LE s = bytesLE (utf16 s) := rfl

/-- Converse: what `wordsLE` accepts are the bytes of the words. -/
theorem wordsLE_ok : ∀ {b : Bytes} {ws : List Nat}, wordsLE b = .ok ws →
    b = bytesLE ws ∧ ∀ w ∈ ws, w < 0x10000
  | [], ws, h => by cases h; simp [bytesLE]
  | [_], ws, h => by cases h
  | a :: b :: bs, ws, h => by
    simp only [wordsLE, bind, Except.bind] at h
    split at h
    · cases h
    rename_i ws' hws'
    cases h
    obtain ⟨h1, h2⟩ := wordsLE_ok hws'
    have ha := byte_lt a
    have hb := byte_lt b
    constructor
    · simp only [bytesLE, List.flatMap_cons, List.cons_append, List.nil_append] at h1 ⊢
      rw [← h1]
      have e1 : (a.toNat + 256 * b.toNat) % 256 = a.toNat := by omega
      have e2 : (a.toNat + 256 * b.toNat) / 256 = b.toNat := by omega
      rw [e1, e2, ofNat_toNat, ofNat_toNat]
    · intro w hw
      rcases List.mem_cons.1 hw with rfl | hw
      · omega
      · exact h2 w hw

theorem wordsBE_ok : ∀ {b : Bytes} {ws : List Nat}, wordsBE b = .ok ws →
    b = (ws.flatMap fun w => [UInt8.ofNat (w / 256), UInt8.ofNat (w % 256)]) ∧
      ∀ w ∈ ws, w < 0x10000
  | [], ws, h => by cases h; simp
  | [_], ws, h => by cases h
  | a :: b :: bs, ws, h => by
    simp only [wordsBE, bind, Except.bind] at h
    split at h
    · cases h
    rename_i ws' hws'
    cases h
    obtain ⟨h1, h2⟩ := wordsBE_ok hws'
    have ha := byte_lt a
    have hb := byte_lt b
    constructor
    · simp only [List.flatMap_cons, List.cons_append, List.nil_append] at h1 ⊢
      rw [← h1]
      have e1 : (256 * a.toNat + b.toNat) % 256 = b.toNat := by omega
      have e2 : (256 * a.toNat + b.toNat) / 256 = a.toNat := by omega
      rw [e1, e2, ofNat_toNat, ofNat_toNat]
    · intro w hw
      rcases List.mem_cons.1 hw with rfl | hw
      · omega
      · exact h2 w hw

theorem decodeWords_utf16 (s : Str) : decodeWords (utf16 s) = .ok s := by
  induction s with
  | nil => rfl
  | cons c s ih =>
    have hv := char_valid c
    rw [show utf16 (c :: s) = units16 c ++ utf16 s by simp [utf16]]
    unfold units16
    split
    · rename_i hc
      simp only [List.cons_append, List.nil_append]
      rw [decodeWords.eq_def]
      simp only []
      rw [if_neg (by omega), if_neg (by omega), ih]
      simp [bind, Except.bind]
    · rename_i hc
      simp only [List.cons_append, List.nil_append]
      rw [decodeWords.eq_def]
      simp only []
      rw [if_pos (by omega), if_pos (by omega), ih]
      simp only [bind, Except.bind]
      have : 0x10000 + (0xD800 + (c.toNat - 0x10000) / 1024 - 0xD800) * 0x400 +
          (0xDC00 + (c.toNat - 0x10000) % 1024 - 0xDC00) = c.toNat := by omega
      rw [this, char_ofNat_toNat]

/-- What the decoder accepts is the UTF-16 form of what it returns. -/
theorem decodeWords_ok (n : Nat) : ∀ {ws : List Nat} {s : Str}, ws.length ≤ n →
    (∀ w ∈ ws, w < 0x10000) → decodeWords ws = .ok s → ws = utf16 s := by
  induction n with
  | zero =>
    intro ws s hl _ h
    obtain rfl : ws = [] := List.length_eq_zero_iff.1 (by omega)
    cases h; rfl
  | succ n ih =>
    intro ws s hl hlt h
    cases ws with
    | nil => cases h; rfl
    | cons w ws =>
      have hw := hlt w (by simp)
      rw [decodeWords.eq_def] at h
      simp only [] at h
      split at h
      · rename_i hs
        split at h
        · cases h
        rename_i v ws'
        have hv := hlt v (by simp)
        split at h
        · rename_i hv'
          simp only [bind, Except.bind] at h
          split at h
          · cases h
          rename_i s' hs'
          cases h
          have := ih (by simp at hl; omega) (fun w hw => hlt w (by simp [hw])) hs'
          simp only [utf16, List.flatMap_cons, units16] at this ⊢
          rw [char_toNat_ofNat (by omega), if_neg (by omega), ← this]
          simp; omega
        · cases h
      · rename_i hs
        split at h
        · cases h
        rename_i hs2
        simp only [bind, Except.bind] at h
        split at h
        · cases h
        rename_i s' hs'
        cases h
        have := ih (by simp at hl; omega) (fun w hw => hlt w (by simp [hw])) hs'
        simp only [utf16, List.flatMap_cons, units16] at this ⊢
        rw [char_toNat_ofNat (by omega), if_pos (by omega), ← this]
        simp

theorem decodeWords_err (ws : List Nat) (e : PyErr) (h : decodeWords ws = .error e) :
    e = .unicodeDecodeError := by
  induction hn : ws.length using Nat.strongRecOn generalizing ws with
  | _ n ih =>
    cases ws with
    | nil => cases h
    | cons w ws =>
      rw [decodeWords.eq_def] at h
      simp only [] at h
      split at h
      · split at h
        · cases h; rfl
        rename_i v ws'
        split at h
        · simp only [bind, Except.bind] at h
          split at h
          · rename_i e' he'
            cases h
            exact ih ws'.length (by simp at hn; omega) ws' he' rfl
          · cases h
        · cases h; rfl
      · split at h
        · cases h; rfl
        simp only [bind, Except.bind] at h
        split at h
        · rename_i e' he'
          cases h
          exact ih ws.length (by simp at hn; omega) ws he' rfl
        · cases h

theorem wordsLE_err : ∀ (b : Bytes) (e : PyErr), wordsLE b = .error e → e = .unicodeDecodeError
  | [], e, h => by cases h
  | [_], e, h => by cases h; rfl
  | a :: b :: bs, e, h => by
    simp only [wordsLE, bind, Except.bind] at h
    split at h
    · rename_i e' he'
      cases h; exact wordsLE_err bs _ he'
    · cases h

theorem wordsBE_err : ∀ (b : Bytes) (e : PyErr), wordsBE b = .error e → e = .unicodeDecodeError
  | [], e, h => by cases h
  | [_], e, h => by cases h; rfl
  | a :: b :: bs, e, h => by
    simp only [wordsBE, bind, Except.bind] at h
    split at h
    · rename_i e' he'
      cases h; exact wordsBE_err bs _ he'
    · cases h

/-- Decoding little-endian words without a mark. -/
def decodeLE (b : Bytes) : Py Str := do decodeWords (← wordsLE b)
/-- Decoding big-endian words. -/
def decodeBE (b : Bytes) : Py Str := do decodeWords (← wordsBE b)

theorem decodeLE_ok_iff (b : Bytes) (s : Str) : decodeLE b = .ok s ↔ b = utf16LE s := by
  unfold decodeLE
  constructor
  · intro h
    simp only [bind, Except.bind] at h
    split at h
    · cases h
    rename_i ws hws
    obtain ⟨h1, h2⟩ := wordsLE_ok hws
    rw [h1, utf16LE_eq, ← decodeWords_ok ws.length (Nat.le_refl _) h2 h]
  · rintro rfl
    rw [utf16LE_eq, wordsLE_bytes (fun w hw => utf16_lt hw)]
    simp only [bind, Except.bind, decodeWords_utf16]

theorem decodeBE_ok_iff (b : Bytes) (s : Str) : decodeBE b = .ok s ↔ b = utf16BE s := by
  unfold decodeBE
  constructor
  · intro h
    simp only [bind, Except.bind] at h
    split at h
    · cases h
    rename_i ws hws
    obtain ⟨h1, h2⟩ := wordsBE_ok hws
    rw [h1, utf16BE, ← decodeWords_ok ws.length (Nat.le_refl _) h2 h]
  · rintro rfl
    rw [utf16BE, wordsBE_bytes (fun w hw => utf16_lt hw)]
    simp only [bind, Except.bind, decodeWords_utf16]

theorem decodeLE_err (b : Bytes) (e : PyErr) (h : decodeLE b = .error e) :
    e = .unicodeDecodeError := by
  unfold decodeLE at h
  simp only [bind, Except.bind] at h
  split at h
  · rename_i e' he'; cases h; exact wordsLE_err _ _ he'
  · exact decodeWords_err _ _ h

theorem decodeBE_err (b : Bytes) (e : PyErr) (h : decodeBE b = .error e) :
    e = .unicodeDecodeError := by
  unfold decodeBE at h
  simp only [bind, Except.bind] at h
  split at h
  · rename_i e' he'; cases h; exact wordsBE_err _ _ he'
  · exact decodeWords_err _ _ h

theorem decodeUtf16_markLE (b : Bytes) : decodeUtf16 (0xFF :: 0xFE :: b) = decodeLE b := rfl
theorem decodeUtf16_markBE (b : Bytes) : decodeUtf16 (0xFE :: 0xFF :: b) = decodeBE b := rfl

theorem decodeUtf16_noMark (b : Bytes) (h1 : ∀ t, b ≠ 0xFF :: 0xFE :: t)
    (h2 : ∀ t, b ≠ 0xFE :: 0xFF :: t) : decodeUtf16 b = decodeLE b := by
  unfold decodeUtf16
  split
  · exact absurd rfl (h1 _)
  · exact absurd rfl (h2 _)
  · rfl

theorem utf16LE_cons_bmp {c : Char} (h : c.toNat < 0x10000) (s : Str) :
    utf16LE (c :: s) = UInt8.ofNat (c.toNat % 256) :: UInt8.ofNat (c.toNat / 256) :: utf16LE s := by
  simp [utf16LE, utf16, units16, h]

theorem utf16LE_mark {a b : UInt8} {t : Bytes} {s : Str} (h : utf16LE s = a :: b :: t) :
    ∃ c s', s = c :: s' ∧
      (c.toNat < 0x10000 → c.toNat = a.toNat + 256 * b.toNat ∧ t = utf16LE s') ∧
      (0x10000 ≤ c.toNat → 0xD8 ≤ b.toNat ∧ b.toNat < 0xDC) := by
  cases s with
  | nil => simp [utf16LE, utf16] at h
  | cons c s =>
    refine ⟨c, s, rfl, ?_, ?_⟩
    · intro hc
      rw [utf16LE_cons_bmp hc] at h
      injection h with e1 h
      injection h with e2 h
      have e1 := congrArg UInt8.toNat e1
      have e2 := congrArg UInt8.toNat e2
      rw [toNat_ofNat_lt (by omega)] at e1 e2
      exact ⟨by omega, h.symm⟩
    · intro hc
      have := char_valid c
      simp only [utf16LE, utf16, List.flatMap_cons, units16] at h
      rw [if_neg (by omega)] at h
      simp only [List.cons_append, List.flatMap_cons] at h
      injection h with e1 h
      injection h with e2 h
      have e2 := congrArg UInt8.toNat e2
      rw [toNat_ofNat_lt (by omega)] at e2
      omega

theorem decodeUtf16_utf16LE {s : Str} (h : NoMark s) : decodeUtf16 (utf16LE s) = .ok s := by
  rw [decodeUtf16_noMark]
  · exact (decodeLE_ok_iff _ _).2 rfl
  · intro t ht
    obtain ⟨c, s', rfl, h1, h2⟩ := utf16LE_mark ht
    have := h c s' rfl
    have hv := char_valid c
    rcases Nat.lt_or_ge c.toNat 0x10000 with hc | hc
    · have := (h1 hc).1; simp at this; omega
    · have := h2 hc; simp at this
  · intro t ht
    obtain ⟨c, s', rfl, h1, h2⟩ := utf16LE_mark ht
    have := h c s' rfl
    have hv := char_valid c
    rcases Nat.lt_or_ge c.toNat 0x10000 with hc | hc
    · have := (h1 hc).1; simp at this; omega
    · have := h2 hc; simp at this

theorem utf16LE_length (s : Str) : (utf16LE s).length = (utf16 s).length * 2 := by
  have : ∀ ws : List Nat, (bytesLE ws).length = ws.length * 2 := by
    intro ws
    induction ws with
    | nil => rfl
    | cons w ws ih => simp only [bytesLE, List.flatMap_cons, List.length_append] at ih ⊢; simp [ih]; omega
  exact this _

theorem le32_length (n : Nat) : (le32 n).length = 4 := rfl

theorem packI_eq {n : Nat} (h : n < 2 ^ 32) : packI n = .ok (le32 n) := by
  simp only [Nat.reducePow] at h
  unfold packI le32
  rw [if_pos h]
  have : n / 16777216 % 256 = n / 16777216 := by omega
  rw [this]

theorem unpackI_le32 {n : Nat} (h : n < 2 ^ 32) : unpackI (le32 n) = .ok n := by
  simp only [Nat.reducePow] at h
  unfold unpackI le32
  simp only []
  rw [toNat_ofNat_lt (by omega), toNat_ofNat_lt (by omega), toNat_ofNat_lt (by omega),
    toNat_ofNat_lt (by omega)]
  congr 1; omega

theorem utf16_length_ge (s : Str) : s.length ≤ (utf16 s).length := by
  induction s with
  | nil => simp [utf16]
  | cons c s ih =>
    simp only [utf16, List.flatMap_cons, List.length_append, List.length_cons] at ih ⊢
    have : 1 ≤ (units16 c).length := by unfold units16; split <;> simp
    omega

theorem xstrLoad_le32 {n : Nat} (hn : n < 0xFFFFFFFF) (rest : Bytes) :
    xstrLoad (le32 n ++ rest) = (decodeUtf16 (rest.take (n * 2))).map
      (fun s => (some s, rest.drop (n * 2))) := by
  unfold xstrLoad
  have h1 : (le32 n ++ rest).take 4 = le32 n := List.take_left' (le32_length n)
  have h2 : (le32 n ++ rest).drop 4 = rest := List.drop_left' (le32_length n)
  rw [h1, h2, unpackI_le32 (by simp; omega)]
  simp only [bind, Except.bind]
  rw [if_neg (by omega)]
  cases decodeUtf16 (rest.take (n * 2)) <;> rfl

theorem xstrLoad_wideString {s : Str} (h : NoMark s) (hl : (utf16 s).length < 0xFFFFFFFF)
    (rest : Bytes) : xstrLoad (wideString s ++ rest) = .ok (some s, rest) := by
  unfold wideString
  rw [List.append_assoc, xstrLoad_le32 hl]
  rw [List.take_left' (utf16LE_length s), List.drop_left' (utf16LE_length s),
    decodeUtf16_utf16LE h]
  rfl

theorem utf16_bmp_length {s : Str} (h : ∀ c ∈ s, c.toNat < 0x10000) :
    (utf16 s).length = s.length := by
  induction s with
  | nil => rfl
  | cons c s ih =>
    have := ih (fun c hc => h c (by simp [hc]))
    simp only [utf16, List.flatMap_cons, List.length_append, List.length_cons] at this ⊢
    rw [this]
    have : (units16 c).length = 1 := by unfold units16; rw [if_pos (h c (by simp))]; rfl
    omega

end Rxls
