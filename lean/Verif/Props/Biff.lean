import Verif.Lemmas.BiffAny

/-! # Properties C01-C07: BIFF12 record streams -/

namespace Rxls

/-! ## C01 -/

/-- C01.  Dumping any list of encodable records and scanning the bytes gives the records back. -/
theorem C01_stream_roundtrip (rs : List Record) (h : ∀ r ∈ rs, Encodable r) :
    ∃ out, writeAll rs [] = .ok out ∧ scanBiff none out = rs := by
  obtain ⟨out, ho⟩ := encodeAll_isOk rs h
  refine ⟨out, by rw [writeAll_eq, ho]; rfl, ?_⟩
  have := scanBiff_encodeAll rs ho none []
  rw [List.append_nil, scanBiff_nil, List.append_nil] at this
  rw [this]; simp [selectedPlain]

/-- Stronger form of C01: whatever already is on the stream after the records is scanned next. -/
theorem C01_stream_roundtrip_append (rs : List Record) (out rest : Bytes)
    (h : writeAll rs [] = .ok out) : scanBiff none (out ++ rest) = rs ++ scanBiff none rest := by
  have he := writeAll_nil h
  have := scanBiff_encodeAll rs he none rest
  rw [this]; simp [selectedPlain]

example : (∀ r ∈ [(⟨0, [1, 2]⟩ : Record), ⟨412, []⟩, ⟨0x7F, List.replicate 300 7⟩], Encodable r) ∧
    (writeAll [⟨0, [1, 2]⟩, ⟨412, []⟩] []).toOption = some [0, 2, 1, 2, 0x9C, 1, 0] := by
  decide +kernel

/-- C01 for every byte string.  It splits in exactly one way into records on the wire, with size
fields of any admissible length, and bytes that do not begin with one; the scanner yields these
records, and nothing else. -/
theorem C01_any_stream (io : Bytes) :
    (∃ rs t, Splits io rs t) ∧
    (∀ rs t rs' t', Splits io rs t → Splits io rs' t' → rs = rs' ∧ t = t') ∧
    (∀ rs, scanBiff none io = rs ↔ ∃ t, Splits io rs t) := by
  refine ⟨splits_exists _ io le_rfl, fun _ _ _ _ h h' => splits_unique h h', fun rs => ?_⟩
  constructor
  · rintro rfl
    obtain ⟨rs, t, h⟩ := splits_exists _ io le_rfl
    rw [scanBiff_splits h]; exact ⟨t, h⟩
  · rintro ⟨t, h⟩; exact scanBiff_splits h

/-- What the writer emits is a record on the wire. -/
theorem C01_written_is_wire (r : Record) (w : Bytes) (h : r.asBinary = .ok w) : WireRecord r w := by
  obtain ⟨he, a, b, ha, hb, rfl⟩ := asBinary_split h
  rw [idField_of_encodable he.1] at ha
  cases ha
  obtain ⟨sz, e, hs⟩ := (readSize_iff (b ++ []) _ []).1 (readSize_dumpSz hb [])
  simp only [List.append_nil] at e
  subst e
  exact ⟨he.1, b, rfl, hs⟩

/-- A padded size field (`83 00` for 3) and a cut record at the end. -/
example : scanBiff none [5, 0x83, 0, 7, 8, 9, 0x9C, 1, 2, 4] = [⟨5, [7, 8, 9]⟩] ∧
    SizeField [0x83, 0] 3 ∧ ¬ SizeField [0x83] 3 := by
  refine ⟨by decide +kernel, ?_, ?_⟩ <;> simp [SizeField, Continued, groupsValue]

/-! ## C02 -/

/-- C02.  `as_binary` raises `struct.error` exactly on unencodable records. -/
theorem C02_as_binary_error_iff (r : Record) :
    r.asBinary = .error .structError ↔ ¬ Encodable r := by
  constructor
  · intro h he
    obtain ⟨a, b, _, _, h3⟩ := asBinary_ok he
    rw [h3] at h; cases h
  · exact asBinary_err

/-- C02.  `as_binary` raises nothing but `struct.error`. -/
theorem C02_as_binary_only_struct_error (r : Record) (e : PyErr) (h : r.asBinary = .error e) :
    e = .structError := by
  by_cases he : Encodable r
  · obtain ⟨a, b, _, _, h3⟩ := asBinary_ok he
    rw [h3] at h; cases h
  · rw [asBinary_err he] at h; cases h; rfl

/-- C02.  On success the output is id field, size field, payload. -/
theorem C02_as_binary_layout (r : Record) (w : Bytes) (h : r.asBinary = .ok w) :
    ∃ sz, w = idBytes r.recId ++ sz ++ r.data ∧ sz.length = sizeClass r.data.length ∧
      groupsValue sz = r.data.length ∧ Continued sz ∧ w.length = wireLength r := by
  obtain ⟨he, a, b, ha, hb, hw⟩ := asBinary_split h
  rw [idField_of_encodable he.1] at ha
  cases ha
  exact ⟨b, hw, dumpSz_length hb, (groupsValue_dumpSz hb).1, (groupsValue_dumpSz hb).2,
    asBinary_length h⟩

/-- C02.  `dump` appends the encoding and returns the new stream position; it fails exactly when
`as_binary` does. -/
theorem C02_dump_position (r : Record) (written : Bytes) :
    (Encodable r → ∃ w, r.asBinary = .ok w ∧
      r.dump written = .ok (written ++ w, written.length + wireLength r)) ∧
    (¬ Encodable r → r.dump written = .error .structError) := by
  constructor
  · intro he
    obtain ⟨a, b, _, _, h3⟩ := asBinary_ok he
    refine ⟨_, h3, ?_⟩
    simp only [Record.dump, h3, bind, Except.bind]
    rw [List.length_append, asBinary_length h3]
  · intro he
    simp [Record.dump, asBinary_err he, bind, Except.bind]

example : ¬ Encodable ⟨0x100, []⟩ ∧ ¬ Encodable ⟨0x10080, []⟩ ∧ Encodable ⟨0xFF80, [5]⟩ := by
  decide
example : (Record.asBinary ⟨0xFF80, [5]⟩).toOption = some [0x80, 0xFF, 1, 5] := by decide +kernel

/-! ## C03 -/

/-- C03.  Cutting a stream of records at any byte leaves exactly the records wholly before it. -/
theorem C03_truncation (rs : List Record) (out : Bytes) (h : writeAll rs [] = .ok out) (k : Nat) :
    scanBiff none (out.take k) = wholeBefore k rs := by
  have he := writeAll_nil h
  exact scanBiff_take rs he k

/-- `wholeBefore` is a prefix of the records, it fits in the cut, and the next record does not. -/
theorem C03_wholeBefore_spec (k : Nat) (rs : List Record) :
    ∃ rest, rs = wholeBefore k rs ++ rest ∧ ((wholeBefore k rs).map wireLength).sum ≤ k ∧
      (∀ r rest', rest = r :: rest' →
        k < ((wholeBefore k rs).map wireLength).sum + wireLength r) := by
  induction rs generalizing k with
  | nil => exact ⟨[], rfl, by simp [wholeBefore], by simp⟩
  | cons r rs ih =>
    by_cases hk : wireLength r ≤ k
    · obtain ⟨rest, h1, h2, h3⟩ := ih (k - wireLength r)
      refine ⟨rest, ?_, ?_, ?_⟩
      · simp only [wholeBefore, if_pos hk, List.cons_append, ← h1]
      · simp only [wholeBefore, if_pos hk, List.map_cons, List.sum_cons]; omega
      · intro r' rest' hr
        have := h3 r' rest' hr
        simp only [wholeBefore, if_pos hk, List.map_cons, List.sum_cons]; omega
    · refine ⟨r :: rs, by simp [wholeBefore, hk], by simp [wholeBefore, hk], ?_⟩
      intro r' rest' hr
      cases hr
      simp [wholeBefore, hk]; omega

example : ∃ out, writeAll [⟨0, [1, 2]⟩, ⟨412, [9]⟩, ⟨5, []⟩] [] = .ok out ∧ out.length = 10 ∧
    scanBiff none (out.take 7) = [⟨0, [1, 2]⟩] ∧ scanBiff none (out.take 8) =
      [⟨0, [1, 2]⟩, ⟨412, [9]⟩] :=
  ⟨[0, 2, 1, 2, 0x9C, 1, 1, 9, 5, 0], by decide +kernel⟩

/-! ## C04 -/

/-- C04.  With a filter, exactly the records of the unfiltered scan whose id is in the set; for
every byte string, well formed or not.  `None` and the empty set keep everything. -/
theorem C04_only_filter (s : List Nat) (io : Bytes) :
    scanBiff (some s) io =
      (scanBiff none io).filter (fun r => decide (s = [] ∨ r.recId ∈ s)) := by
  rw [scanBiff_filter (some s) (io.length + 1) io (by omega)]
  apply List.filter_congr
  intro r _
  cases s <;> simp [selectedPlain]

example : scanBiff (some [5]) [0, 2, 1, 2, 5, 1, 9, 5, 200] = [⟨5, [9]⟩] ∧
    scanBiff (some []) [0, 2, 1, 2, 5, 1, 9, 5, 200] = [⟨0, [1, 2]⟩, ⟨5, [9]⟩] := by
  decide +kernel

/-! ## C05 -/

/-- C05.  For every block size the accelerated scanner yields what the plain one yields, and
finishes, on streams of whole records with ids below 0x8000. -/
theorem C05_numba_eq_plain (blk : Nat) (hblk : 1 ≤ blk) (only : OnlySet)
    (honly : only ≠ some []) (rs : List Record) (hid : ∀ r ∈ rs, r.recId < 0x8000) (out : Bytes)
    (h : writeAll rs [] = .ok out) :
    ∀ n, out.length + 2 ≤ n → numbaRun blk only n [] out = (scanBiff only out, true) := by
  intro n hn
  have he := writeAll_nil h
  rw [numba_whole blk hblk only rs out he hid n (by omega)]
  have := scanBiff_encodeAll rs he only []
  rw [List.append_nil, scanBiff_nil, List.append_nil] at this
  rw [this]
  congr 1
  apply List.filter_congr
  intro r _
  match only with
  | none => rfl
  | some [] => exact absurd rfl honly
  | some (a :: s) =>
    simp only [selectedNumba, selectedPlain, List.isEmpty_cons, Bool.false_or]
    rw [Bool.eq_iff_iff]
    simp only [List.any_eq_true, beq_iff_eq, List.contains_iff_mem]
    constructor
    · rintro ⟨x, hx, e⟩
      have : x = r.recId := by omega
      exact this ▸ hx
    · intro hx; exact ⟨_, hx, rfl⟩

example : numbaRun 3 none 20 [] [0, 2, 1, 2, 0x9C, 1, 1, 9, 5, 0] =
    ([⟨0, [1, 2]⟩, ⟨412, [9]⟩, ⟨5, []⟩], true) := by decide +kernel

/-- C05 for every byte string whose records have ids below `0x8000`, whole or not, with size fields
of any admissible length: the accelerated scanner yields exactly the selected records of the plain
one. -/
theorem C05_any_stream (blk : Nat) (hblk : 1 ≤ blk) (only : OnlySet) (io : Bytes)
    (hid : ∀ r ∈ scanBiff none io, r.recId < 0x8000) :
    ∀ n, io.length + 2 ≤ n → (numbaRun blk only n [] io).1 =
      (scanBiff none io).filter (fun r => selectedNumba only r.recId) := by
  obtain ⟨rs, t, h⟩ := splits_exists _ io le_rfl
  rw [scanBiff_splits h] at hid ⊢
  intro n hn
  rw [((numbaRun_any blk hblk only n [] io rs t (by simpa using h) hid).2 hn)]

/-- C05, one block, any ids: a stream of whole records that fits one block is read as the plain
scanner reads it, except that selected records with bit 15 set in their id are dropped. -/
theorem C05_one_block (blk : Nat) (only : OnlySet) (io : Bytes) (hlen : io.length ≤ blk)
    (rs : List Record) (h : Splits io rs []) :
    ∀ n, 2 ≤ n → numbaRun blk only n [] io = (rs.filter fun r =>
      selectedNumba only (toInt16 r.recId) && decide (r.recId < 0x8000), true) := by
  intro n hn
  obtain ⟨n, rfl⟩ := Nat.exists_eq_add_of_le' hn
  rw [numbaRun, List.nil_append, List.take_of_length_le hlen, List.drop_of_length_le hlen]
  cases hio : io with
  | nil =>
    rw [hio] at h
    have h0 := scanBiff_splits h
    rw [scanBiff_nil] at h0
    subst h0
    simp
  | cons a b =>
    rw [← hio, scanChunk_any only h]
    have : io.isEmpty = false := by rw [hio]; rfl
    simp [this, numbaRun]

/-- Finding: the two variants disagree on the empty id set, for every non-empty stream. -/
theorem C05_empty_set_differs (blk : Nat) (hblk : 1 ≤ blk) (rs : List Record)
    (hid : ∀ r ∈ rs, r.recId < 0x8000) (out : Bytes) (h : writeAll rs [] = .ok out) :
    scanBiff (some []) out = rs ∧
      ∀ n, out.length + 2 ≤ n → numbaRun blk (some []) n [] out = ([], true) := by
  have he := writeAll_nil h
  constructor
  · have := scanBiff_encodeAll rs he (some []) []
    rw [List.append_nil, scanBiff_nil, List.append_nil] at this
    rw [this]; simp [selectedPlain]
  · intro n hn
    rw [numba_whole blk hblk (some []) rs out he hid n (by omega)]
    simp [selectedNumba]

/-- Finding: an id with bit 15 set is a negative `int16` for the accelerated scanner, which takes it
for its end-of-chunk marker: the record is lost and the stream loses its alignment. -/
theorem C05_high_id_differs :
    ∃ rs out, (∀ r ∈ rs, Encodable r) ∧ writeAll rs [] = .ok out ∧ scanBiff none out = rs ∧
      (numbaRun numbaBlock none 1 [] out).1 ≠ rs ∧
      (numbaRun numbaBlock none 1 [] out).1 = [⟨1, [7]⟩] :=
  ⟨[⟨0x8080, [5, 6]⟩, ⟨1, [7]⟩], [0x80, 0x80, 2, 5, 6, 1, 1, 7], by decide, by decide +kernel,
    by decide +kernel, by decide +kernel, by decide +kernel⟩

/-! ## C06 -/

/-- C06, plain variant.  Exhausting the scanner ends after at most one iteration per byte, plus one. -/
theorem C06_plain_terminates (only : OnlySet) (io : Bytes) :
    ∀ n, io.length < n → scanFuel only n io = some (scanBiff only io) :=
  fun _ h => scanFuel_eq only h

/-- C06, accelerated variant, on streams of whole records.  Missing: streams that end inside a
record, where it is false (`C06_numba_diverges`). -/
theorem C06_numba_terminates_partial (blk : Nat) (hblk : 1 ≤ blk) (only : OnlySet)
    (rs : List Record) (hid : ∀ r ∈ rs, r.recId < 0x8000) (out : Bytes)
    (h : writeAll rs [] = .ok out) :
    ∃ n, (numbaRun blk only n [] out).2 = true := by
  have he := writeAll_nil h
  exact ⟨out.length + 2, by
    rw [numba_whole blk hblk only rs out he hid _ (by omega)]⟩

/-- Finding: on *every* stream of whole records followed by a non-empty proper prefix of a record
the accelerated scanner never finishes; it yields the whole records and then loops. -/
theorem C06_numba_diverges (blk : Nat) (hblk : 1 ≤ blk) (only : OnlySet) (rs : List Record)
    (hid : ∀ r ∈ rs, r.recId < 0x8000) (out : Bytes) (h : writeAll rs [] = .ok out)
    (r : Record) (w p q : Bytes) (hr : r.asBinary = .ok w) (hw : w = p ++ q) (hp : p ≠ [])
    (hq : q ≠ []) :
    (∀ n, (numbaRun blk only n [] (out ++ p)).2 = false) ∧
    (∀ n, (out ++ p).length + 2 ≤ n → (numbaRun blk only n [] (out ++ p)).1 =
      rs.filter (fun r => selectedNumba only r.recId)) := by
  have he := writeAll_nil h
  constructor
  · intro n
    exact numbaRun_unfinished blk hblk only p q w r hr hw hq hp n rs out [] (out ++ p) he hid rfl
  · intro n hn
    rw [numbaRun_spec blk hblk only p q w r hr hw hq n rs out [] (out ++ p) he hid rfl (by omega)]

example : scanBiff none [0, 2, 1, 2, 5, 9] = [⟨0, [1, 2]⟩] ∧
    numbaRun numbaBlock none 5 [] [0, 2, 1, 2, 5, 9] = ([⟨0, [1, 2]⟩], false) := by decide +kernel

/-- C06, exactly.  On a stream whose records have ids below `0x8000` the accelerated scanner ends if
and only if nothing is left after the last whole record; otherwise it loops for ever, having yielded
the whole records. -/
theorem C06_exact (blk : Nat) (hblk : 1 ≤ blk) (only : OnlySet) (io : Bytes) (rs : List Record)
    (t : Bytes) (h : Splits io rs t) (hid : ∀ r ∈ rs, r.recId < 0x8000) :
    ((∃ n, (numbaRun blk only n [] io).2 = true) ↔ t = []) ∧
    (t = [] → ∀ n, io.length + 2 ≤ n → (numbaRun blk only n [] io).2 = true) := by
  have key := fun n => numbaRun_any blk hblk only n [] io rs t (by simpa using h) hid
  have h2 : t = [] → ∀ n, io.length + 2 ≤ n → (numbaRun blk only n [] io).2 = true := by
    intro ht n hn
    rw [(key n).2 hn]; simpa using ht
  refine ⟨⟨?_, fun ht => ⟨_, h2 ht _ le_rfl⟩⟩, h2⟩
  rintro ⟨n, hn⟩
  have := (key n).1
  rw [hn] at this
  simpa using this

example : Splits [5, 1, 9, 5, 200] [⟨5, [9]⟩] [5, 200] ∧
    (numbaRun numbaBlock none 9 [] [5, 1, 9, 5, 200]).2 = false ∧
    (numbaRun numbaBlock none 9 [] [5, 0x81, 0, 9]) = ([⟨5, [9]⟩], true) := by
  refine ⟨?_, by decide +kernel, by decide +kernel⟩
  have h : scanBiff none [5, 200] = [] := by decide +kernel
  obtain ⟨t, ht⟩ := ((C01_any_stream [5, 200]).2.2 []).1 h
  have e := splits_none ht
  subst e
  exact .record (w := [5, 1, 9]) ⟨by decide, [1], rfl, by
    simp [SizeField, Continued, groupsValue]⟩ ht

/-! ## C07 -/

/-- C07.  `dump_sz` is defined exactly below `2^29`. -/
theorem C07_dump_sz_domain (i : Nat) :
    ((∃ b, dumpSz i = .ok b) ↔ i < 2 ^ 29) ∧ (2 ^ 29 ≤ i → dumpSz i = .error .structError) :=
  ⟨dumpSz_ok_iff i, dumpSz_err⟩

/-- C07.  Length class, value and continuation bits of the size field. -/
theorem C07_dump_sz_value (i : Nat) (b : Bytes) (h : dumpSz i = .ok b) :
    b.length = sizeClass i ∧ groupsValue b = i ∧ Continued b :=
  ⟨dumpSz_length h, groupsValue_dumpSz h⟩

/-- C07.  No size field is a prefix of another one. -/
theorem C07_dump_sz_prefix_free (i j : Nat) (b c t : Bytes) (hi : dumpSz i = .ok b)
    (hj : dumpSz j = .ok c) (h : c = b ++ t) : i = j ∧ t = [] := by
  have h1 := readSize_dumpSz hi t
  have h2 := readSize_dumpSz hj []
  rw [List.append_nil, h, h1] at h2
  simpa using h2

/-- C07.  The size field embedded by `as_binary` is `dump_sz(len(data))`. -/
theorem C07_as_binary_embeds_dump_sz (r : Record) (w : Bytes) (h : r.asBinary = .ok w) :
    ∃ b, dumpSz r.data.length = .ok b ∧ w = idBytes r.recId ++ b ++ r.data := by
  obtain ⟨he, a, b, ha, hb, hw⟩ := asBinary_split h
  rw [idField_of_encodable he.1] at ha
  cases ha
  exact ⟨b, hb, hw⟩

example : (dumpSz 300).toOption = some [0xAC, 2] ∧ (dumpSz 536870911).toOption =
    some [255, 255, 255, 255] ∧ (dumpSz 536870912).toOption = none := by decide +kernel

end Rxls
