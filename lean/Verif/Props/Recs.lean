import Verif.Lemmas.Utf16

/-! # Properties C09-C11: wide strings and the sheet bundle record -/

namespace Rxls

/-! ## C09 -/

/-- C09.  `load` on a wide string returns the string and leaves the stream right after it. -/
theorem C09_load_wide_string (s : Str) (h : NoMark s) (hl : (utf16 s).length < 0xFFFFFFFF)
    (rest : Bytes) : xstrLoad (wideString s ++ rest) = .ok (some s, rest) :=
  xstrLoad_wideString h hl rest

/-- C09.  The all-ones length is the null string. -/
theorem C09_load_null (rest : Bytes) :
    xstrLoad ([0xFF, 0xFF, 0xFF, 0xFF] ++ rest) = .ok (none, rest) := by
  unfold xstrLoad
  simp [unpackI, bind, Except.bind]

/-- C09.  `from_binary` agrees with `load` on every byte string. -/
theorem C09_from_binary_eq_load (b : Bytes) :
    xstrFromBinary b = (xstrLoad b).map Prod.fst := by
  unfold xstrFromBinary xstrLoad pySlice
  simp only [List.drop_zero]
  cases unpackI (b.take 4) with
  | error e => rfl
  | ok sz =>
    simp only [bind, Except.bind]
    split
    · rfl
    · have : (b.take (4 + sz * 2)).drop 4 = (b.drop 4).take (sz * 2) := by
        rw [List.drop_take]; congr 1; omega
      rw [this]
      cases decodeUtf16 ((b.drop 4).take (sz * 2)) <;> rfl

/-- C09.  Exactly which byte strings are decoded, and to what: UTF-16LE with or without mark, or
UTF-16BE with mark.  Everything else is `UnicodeDecodeError`. -/
theorem C09_decode_exact (b : Bytes) (s : Str) :
    decodeUtf16 b = .ok s ↔
      (b = 0xFF :: 0xFE :: utf16LE s) ∨ (b = 0xFE :: 0xFF :: utf16BE s) ∨
      (NoMark s ∧ b = utf16LE s) := by
  constructor
  · intro h
    by_cases h1 : ∃ t, b = 0xFF :: 0xFE :: t
    · obtain ⟨t, rfl⟩ := h1
      rw [decodeUtf16_markLE, decodeLE_ok_iff] at h
      left; rw [h]
    · by_cases h2 : ∃ t, b = 0xFE :: 0xFF :: t
      · obtain ⟨t, rfl⟩ := h2
        rw [decodeUtf16_markBE, decodeBE_ok_iff] at h
        right; left; rw [h]
      · rw [decodeUtf16_noMark b (fun t ht => h1 ⟨t, ht⟩) (fun t ht => h2 ⟨t, ht⟩),
          decodeLE_ok_iff] at h
        right; right
        refine ⟨?_, h⟩
        rintro c t rfl
        constructor
        · intro hc
          apply h1
          refine ⟨utf16LE t, ?_⟩
          rw [h, utf16LE_cons_bmp (by omega), hc]; rfl
        · intro hc
          apply h2
          refine ⟨utf16LE t, ?_⟩
          rw [h, utf16LE_cons_bmp (by omega), hc]; rfl
  · rintro (rfl | rfl | ⟨h, rfl⟩)
    · exact (decodeLE_ok_iff _ _).2 rfl
    · exact (decodeBE_ok_iff _ _).2 rfl
    · exact decodeUtf16_utf16LE h

/-- C09.  The decoder raises nothing but `UnicodeDecodeError`. -/
theorem C09_decode_error (b : Bytes) (e : PyErr) (h : decodeUtf16 b = .error e) :
    e = .unicodeDecodeError := by
  unfold decodeUtf16 at h
  split at h
  · exact decodeLE_err _ _ h
  · exact decodeBE_err _ _ h
  · exact decodeLE_err _ _ h

/-- Finding: a string that begins with U+FEFF loses it. -/
theorem C09_leading_mark_lost (c : Char) (s : Str) (hc : c.toNat = 0xFEFF)
    (hl : (utf16 (c :: s)).length < 0xFFFFFFFF) (rest : Bytes) :
    xstrLoad (wideString (c :: s) ++ rest) = .ok (some s, rest) := by
  unfold wideString
  rw [List.append_assoc, xstrLoad_le32 hl, List.take_left' (utf16LE_length _),
    List.drop_left' (utf16LE_length _), utf16LE_cons_bmp (by omega), hc]
  have : decodeUtf16 (0xFF :: 0xFE :: utf16LE s) = .ok s := (decodeLE_ok_iff _ _).2 rfl
  have e : (UInt8.ofNat (0xFEFF % 256) :: UInt8.ofNat (0xFEFF / 256) :: utf16LE s)
    = (0xFF :: 0xFE :: utf16LE s : Bytes) := rfl
  rw [e, this]; rfl

/-- Finding: a payload shorter than announced is silently accepted if it ends on a character
boundary: `read` returns what there is. -/
theorem C09_short_payload_accepted (s : Str) (h : NoMark s) (n : Nat) (hn : n < 0xFFFFFFFF)
    (hs : (utf16 s).length ≤ n) : xstrLoad (le32 n ++ utf16LE s) = .ok (some s, []) := by
  rw [xstrLoad_le32 hn, List.take_of_length_le (by rw [utf16LE_length]; omega),
    List.drop_of_length_le (by rw [utf16LE_length]; omega), decodeUtf16_utf16LE h]
  rfl

example : NoMark ['h', 'i'] ∧ xstrLoad ([2, 0, 0, 0, 104, 0, 105, 0, 9]) = .ok (some ['h', 'i'], [9])
    ∧ wideString ['h', Char.ofNat 0x1F600] = [3, 0, 0, 0, 104, 0, 0x3D, 0xD8, 0, 0xDE] := by
  refine ⟨?_, by decide +kernel, by decide +kernel⟩
  rintro c t h
  cases h
  decide
example : decodeUtf16 [0x3D, 0xD8, 65, 0] = .error .unicodeDecodeError ∧
    decodeUtf16 [65, 0, 66] = .error .unicodeDecodeError := by decide +kernel

/-! ## C10 -/

/-- C10, restricted: null and empty strings survive.  Missing: every other string, for which the
claim is false (`C10_dump_load_never`). -/
theorem C10_dump_load_partial (rest : Bytes) :
    (∃ b, xstrDump none = .ok b ∧ xstrLoad (b ++ rest) = .ok (none, rest)) ∧
    (∃ b, xstrDump (some []) = .ok b ∧ xstrLoad (b ++ rest) = .ok (some [], rest)) := by
  constructor
  · exact ⟨_, rfl, C09_load_null rest⟩
  · exact ⟨_, rfl, by simp [xstrLoad, unpackI, bind, Except.bind, decodeUtf16, wordsLE, decodeWords]⟩

/-- Finding: no non-empty string survives `dump` followed by `load`, whatever follows on the
stream: the byte order mark that `dump` writes is not counted in the length. -/
theorem C10_dump_load_never (s : Str) (hs : s ≠ []) (b rest io' : Bytes)
    (h : xstrDump (some s) = .ok b) : xstrLoad (b ++ rest) ≠ .ok (some s, io') := by
  intro hl
  obtain ⟨c, t, rfl⟩ : ∃ c t, s = c :: t := by
    cases s with
    | nil => exact absurd rfl hs
    | cons c t => exact ⟨c, t, rfl⟩
  have hlen : (c :: t).length < 2 ^ 32 := by
    by_contra hge
    simp only [xstrDump, packI, bind, Except.bind] at h
    rw [if_neg (by simpa using hge)] at h
    cases h
  simp only [xstrDump, packI_eq hlen, bind, Except.bind] at h
  injection h with h
  subst h
  rw [List.append_assoc] at hl
  by_cases hm : (c :: t).length = 0xFFFFFFFF
  · rw [hm] at hl
    have := C09_load_null (encodeUtf16 (c :: t) ++ rest)
    rw [show ([0xFF, 0xFF, 0xFF, 0xFF] : Bytes) = le32 0xFFFFFFFF from rfl] at this
    rw [this] at hl
    cases hl
  · rw [xstrLoad_le32 (by simp only [Nat.reducePow] at hlen; omega)] at hl
    have e : (encodeUtf16 (c :: t) ++ rest).take ((c :: t).length * 2) =
        0xFF :: 0xFE :: (bytesLE (encodeWords (c :: t)) ++ rest).take (t.length * 2) := by
      unfold encodeUtf16
      rw [List.length_cons, show (t.length + 1) * 2 = t.length * 2 + 1 + 1 by omega]
      rfl
    rw [e, decodeUtf16_markLE] at hl
    cases hd : decodeLE ((bytesLE (encodeWords (c :: t)) ++ rest).take (t.length * 2)) with
    | error e => rw [hd] at hl; cases hl
    | ok s' =>
      rw [hd] at hl
      simp only [Except.map, Except.ok.injEq, Prod.mk.injEq, Option.some.injEq] at hl
      obtain ⟨rfl, _⟩ := hl
      have h1 := congrArg List.length ((decodeLE_ok_iff _ _).1 hd)
      rw [utf16LE_length, List.length_take] at h1
      have h2 := utf16_length_ge (c :: t)
      simp only [List.length_cons] at h2
      omega

/-- Finding, exact form on the Basic Multilingual Plane: the last character is lost and its two
bytes stay on the stream. -/
theorem C10_dump_load_drops_last (s : Str) (c : Char) (h : ∀ x ∈ s ++ [c], x.toNat < 0x10000)
    (hl : s.length < 0xFFFFFFFE) (rest : Bytes) :
    ∃ b, xstrDump (some (s ++ [c])) = .ok b ∧
      xstrLoad (b ++ rest) = .ok (some s, utf16LE [c] ++ rest) := by
  refine ⟨le32 (s ++ [c]).length ++ encodeUtf16 (s ++ [c]), ?_, ?_⟩
  · have hp := packI_eq (n := (s ++ [c]).length) (by simp; omega)
    have : ∀ l : Str, l ≠ [] → packI l.length = .ok (le32 l.length) →
        xstrDump (some l) = .ok (le32 l.length ++ encodeUtf16 l) := by
      intro l hl hp
      cases l with
      | nil => exact absurd rfl hl
      | cons a l => simp only [xstrDump, hp, bind, Except.bind]
    exact this _ (by simp) hp
  · have hs : ∀ x ∈ s, x.toNat < 0x10000 := fun x hx => h x (by simp [hx])
    have hsplit : utf16LE (s ++ [c]) = utf16LE s ++ utf16LE [c] := by simp [utf16LE, utf16]
    have e0 : encodeUtf16 (s ++ [c]) ++ rest =
        (0xFF :: 0xFE :: utf16LE s) ++ (utf16LE [c] ++ rest) := by
      unfold encodeUtf16
      rw [encodeWords_eq, ← utf16LE_eq, hsplit]; simp
    have hlen : (0xFF :: 0xFE :: utf16LE s : Bytes).length = (s ++ [c]).length * 2 := by
      simp only [List.length_cons, utf16LE_length, utf16_bmp_length hs, List.length_append]
      simp; omega
    rw [List.append_assoc, xstrLoad_le32 (by simp; omega), e0, List.take_left' hlen,
      List.drop_left' hlen, decodeUtf16_markLE, (decodeLE_ok_iff _ s).2 rfl]
    rfl

example : (xstrDump (some ['a', 'b'])).toOption = some [2, 0, 0, 0, 0xFF, 0xFE, 97, 0, 98, 0] ∧
    xstrLoad [2, 0, 0, 0, 0xFF, 0xFE, 97, 0, 98, 0] = .ok (some ['a'], [98, 0]) := by
  decide +kernel

/-! ## C11 -/

/-- C11.  A sheet bundle payload in the MS-XLSB layout is parsed into its four fields; bytes after
the name are ignored. -/
theorem C11_bundle_parse (st tab : Nat) (rel name : Str) (rest : Bytes) (hst : st < 2 ^ 32)
    (htab : tab < 2 ^ 32) (h1 : NoMark rel) (h2 : NoMark name)
    (hl1 : (utf16 rel).length < 0xFFFFFFFF) (hl2 : (utf16 name).length < 0xFFFFFFFF) :
    bundleLoadr (le32 st ++ le32 tab ++ wideString rel ++ wideString name ++ rest) =
      .ok ⟨st, tab, some rel, some name⟩ := by
  unfold bundleLoadr
  have e1 : (le32 st ++ le32 tab ++ wideString rel ++ wideString name ++ rest).take 8
      = le32 st ++ le32 tab := by
    rw [List.append_assoc, List.append_assoc]; exact List.take_left' rfl
  have e2 : (le32 st ++ le32 tab ++ wideString rel ++ wideString name ++ rest).drop 8
      = wideString rel ++ (wideString name ++ rest) := by
    rw [List.append_assoc, List.append_assoc]; exact List.drop_left' rfl
  rw [e1, e2]
  unfold unpackII
  rw [if_pos (show (le32 st ++ le32 tab).length = 8 from rfl), List.take_left' (le32_length st), List.drop_left' (le32_length st),
    unpackI_le32 hst, unpackI_le32 htab]
  simp only [bind, Except.bind]
  rw [xstrLoad_wideString h1 hl1]
  simp only []
  rw [xstrLoad_wideString h2 hl2]

/-- A nullable string of MS-XLSB (XLNullableWideString): the length `0xFFFFFFFF` stands for no string. -/
def nullableString : Option Str → Bytes
  | none => [255, 255, 255, 255]
  | some s => wideString s

theorem xstrLoad_nullable {o : Option Str} (h : ∀ s, o = some s → NoMark s ∧ (utf16 s).length < 0xFFFFFFFF)
    (rest : Bytes) : xstrLoad (nullableString o ++ rest) = .ok (o, rest) := by
  cases o with
  | none => rfl
  | some s => exact xstrLoad_wideString (h s rfl).1 (h s rfl).2 rest

/-- C11.  The same with strings that may be absent. -/
theorem C11_bundle_nullable (st tab : Nat) (rel name : Option Str) (rest : Bytes) (hst : st < 2 ^ 32)
    (htab : tab < 2 ^ 32) (h1 : ∀ s, rel = some s → NoMark s ∧ (utf16 s).length < 0xFFFFFFFF)
    (h2 : ∀ s, name = some s → NoMark s ∧ (utf16 s).length < 0xFFFFFFFF) :
    bundleLoadr (le32 st ++ le32 tab ++ nullableString rel ++ nullableString name ++ rest) =
      .ok ⟨st, tab, rel, name⟩ := by
  unfold bundleLoadr
  have e1 : (le32 st ++ le32 tab ++ nullableString rel ++ nullableString name ++ rest).take 8
      = le32 st ++ le32 tab := by
    rw [List.append_assoc, List.append_assoc]; exact List.take_left' rfl
  have e2 : (le32 st ++ le32 tab ++ nullableString rel ++ nullableString name ++ rest).drop 8
      = nullableString rel ++ (nullableString name ++ rest) := by
    rw [List.append_assoc, List.append_assoc]; exact List.drop_left' rfl
  rw [e1, e2]
  unfold unpackII
  rw [if_pos (show (le32 st ++ le32 tab).length = 8 from rfl), List.take_left' (le32_length st), List.drop_left' (le32_length st),
    unpackI_le32 hst, unpackI_le32 htab]
  simp only [bind, Except.bind]
  rw [xstrLoad_nullable h1]
  simp only []
  rw [xstrLoad_nullable h2]

/-- C11.  A payload shorter than the two integers is `struct.error`. -/
theorem C11_bundle_short (data : Bytes) (h : data.length < 8) :
    bundleLoadr data = .error .structError := by
  unfold bundleLoadr unpackII
  rw [if_neg (by simp; omega)]
  rfl

example : bundleLoadr ([0, 0, 0, 0, 7, 0, 0, 0] ++ wideString ['r', '1'] ++ wideString ['S'] ++ [1, 2]) =
    .ok ⟨0, 7, some ['r', '1'], some ['S']⟩ := by decide +kernel

example : bundleLoadr ([0, 0, 0, 0, 7, 0, 0, 0] ++ [255, 255, 255, 255] ++ wideString ['S'] ++ [1, 2]) =
    .ok ⟨0, 7, none, some ['S']⟩ := by decide +kernel

end Rxls
