import Mathlib.Data.Nat.Digits.Lemmas
import Verif.Lemmas.BiffEnum
import Verif.Lemmas.Rels

/-! # Lemmas on `record.__repr__` and the compiled `col_idx` -/

namespace Rxls

theorem shownNumber_eq (id : Nat) (h : EncodableId id) :
    shownNumber id = groupsValue (idBytes id) % 2 ^ 14 := by
  have hx : id &&& 0x7F00 = 256 * (id / 256 % 128) := by
    have h1 : (id &&& 0x7F00) / 2 ^ 8 = id / 2 ^ 8 % 2 ^ 7 := by
      rw [Nat.and_div_two_pow, show 0x7F00 / 2 ^ 8 = 2 ^ 7 - 1 from rfl, Nat.and_two_pow_sub_one_eq_mod]
    have h2 : (id &&& 0x7F00) % 2 ^ 8 = 0 := by
      rw [Nat.and_mod_two_pow, show 0x7F00 % 2 ^ 8 = 0 from rfl, Nat.and_zero]
    omega
  have hy : id &&& 0x7F = id % 128 := Nat.and_two_pow_sub_one_eq_mod id 7
  have hz : id &&& 0x80 ≠ 0 ↔ id / 128 % 2 = 1 := by
    have h1 : (id &&& 0x80) / 2 ^ 7 = id / 2 ^ 7 % 2 ^ 1 := by
      rw [Nat.and_div_two_pow, show 0x80 / 2 ^ 7 = 2 ^ 1 - 1 from rfl, Nat.and_two_pow_sub_one_eq_mod]
    have h2 : (id &&& 0x80) % 2 ^ 7 = 0 := by
      rw [Nat.and_mod_two_pow, show 0x80 % 2 ^ 7 = 0 from rfl, Nat.and_zero]
    omega
  unfold shownNumber
  rw [hx, hy, Nat.shiftRight_eq_div_pow]
  rcases h with h | ⟨h, h'⟩
  · rw [if_neg (by rw [hz]; omega), idBytes, if_pos h]
    simp [groupsValue]
    omega
  · rw [if_pos (hz.mpr h), idBytes, if_neg (by omega)]
    have e : 256 * (id / 256 % 128) / 2 ^ 1 = 2 ^ 7 * (id / 256 % 128) := by omega
    rw [e, Nat.or_comm, ← Nat.two_pow_add_eq_or_of_lt (by omega)]
    simp [groupsValue]
    omega

/-! ## Digits -/

theorem digitChar_inj : ∀ a < 16, ∀ b < 16, Nat.digitChar a = Nat.digitChar b → a = b := by decide

theorem digitChar_plain : ∀ a < 16, Nat.digitChar a ∉ [' ', '(', ')', '<', '>', '`', ']', '-'] := by decide

theorem paddedDigits_inj {base width m n : Nat} (hb : 1 < base) (hb2 : base ≤ 16)
    (h : paddedDigits base width m = paddedDigits base width n) : m = n := by
  unfold paddedDigits at h
  simp only at h
  have hlt : ∀ k : Nat, ∀ d ∈ List.replicate (width - ((base.digits k).reverse).length) 0 ++ (base.digits k).reverse,
      d < 16 := by
    intro k d hd
    rcases List.mem_append.mp hd with hd | hd
    · have := List.eq_of_mem_replicate hd
      omega
    · have := Nat.digits_lt_base hb (List.mem_reverse.mp hd)
      omega
  have key : List.replicate (width - ((base.digits m).reverse).length) 0 ++ (base.digits m).reverse =
      List.replicate (width - ((base.digits n).reverse).length) 0 ++ (base.digits n).reverse := by
    have h1 := hlt m
    have h2 := hlt n
    generalize List.replicate (width - ((base.digits m).reverse).length) 0 ++ (base.digits m).reverse = l1 at *
    generalize List.replicate (width - ((base.digits n).reverse).length) 0 ++ (base.digits n).reverse = l2 at *
    induction l1 generalizing l2 with
    | nil => cases l2 with
      | nil => rfl
      | cons b l2 => simp at h
    | cons a l1 ih => cases l2 with
      | nil => simp at h
      | cons b l2 =>
        simp only [List.map_cons, List.cons.injEq] at h
        have := digitChar_inj a (h1 a (by simp)) b (h2 b (by simp)) h.1
        rw [this, ih (fun d hd => h1 d (by simp [hd])) l2 (fun d hd => h2 d (by simp [hd])) h.2]
  have := congrArg (fun l => Nat.ofDigits base l.reverse) key
  simpa [Nat.ofDigits_append, Nat.ofDigits_digits, Nat.ofDigits_replicate_zero] using this

theorem paddedDigits_plain {base width n : Nat} (hb : 1 < base) (hb2 : base ≤ 16) :
    ∀ c ∈ paddedDigits base width n, c ∉ [' ', '(', ')', '<', '>', '`', ']', '-'] := by
  intro c hc
  unfold paddedDigits at hc
  obtain ⟨d, hd, rfl⟩ := List.mem_map.mp hc
  apply digitChar_plain
  rcases List.mem_append.mp hd with hd | hd
  · have := List.eq_of_mem_replicate hd
    omega
  · have := Nat.digits_lt_base hb (List.mem_reverse.mp hd)
    omega

/-- Two texts that go on after a first separator. -/
theorem split_at {c : Char} {a b r s : List Char} (ha : c ∉ a) (hb : c ∉ b) (h : a ++ c :: r = b ++ c :: s) :
    a = b ∧ r = s := by
  induction a generalizing b with
  | nil => cases b with
    | nil => simpa using h
    | cons x b => simp at h; exact absurd h.1.symm (by rintro rfl; simp at hb)
  | cons x a ih => cases b with
    | nil => simp at h; exact absurd h.1 (by rintro rfl; simp at ha)
    | cons y b =>
      simp only [List.cons_append, List.cons.injEq] at h
      obtain ⟨h1, h2⟩ := ih (b := b) (by simp at ha; exact ha.2) (by simp at hb; exact hb.2) h.2
      exact ⟨by rw [h.1, h1], h2⟩

theorem centred4_plain (n : Nat) : '>' ∉ centred4 n := by
  intro h
  unfold centred4 at h
  simp only [List.mem_append] at h
  rcases h with (h | h) | h
  · exact absurd (List.eq_of_mem_replicate h) (by decide)
  · exact paddedDigits_plain (by norm_num) (by norm_num) _ h (by decide)
  · exact absurd (List.eq_of_mem_replicate h) (by decide)

theorem paddedDigits_byte_length (x : UInt8) : (paddedDigits 16 2 x.toNat).length = 2 := by
  have : ∀ n < 256, (paddedDigits 16 2 n).length = 2 := by decide +kernel
  exact this _ x.toNat_lt

theorem paddedDigits_byte (x : UInt8) :
    paddedDigits 16 2 x.toNat = [Nat.digitChar (x.toNat / 16), Nat.digitChar (x.toNat % 16)] := by
  have : ∀ n < 256, paddedDigits 16 2 n = [Nat.digitChar (n / 16), Nat.digitChar (n % 16)] := by decide +kernel
  exact this _ x.toNat_lt

theorem paddedDigits_succ {base : Nat} (hb : 1 < base) (w n : Nat) :
    paddedDigits base (w + 1) n = paddedDigits base w (n / base) ++ [Nat.digitChar (n % base)] := by
  unfold paddedDigits
  rcases Nat.eq_zero_or_pos n with rfl | hn
  · simp [List.replicate_succ']
  · simp [Nat.digits_def' hb hn]

/-- Four digits. -/
theorem paddedDigits_four' {base n : Nat} (hb : 1 < base) (h : n < base ^ 4) :
    paddedDigits base 4 n = [n / base / base / base % base, n / base / base % base, n / base % base, n % base].map
      Nat.digitChar := by
  have h0 : n / base / base / base / base = 0 := by
    rw [Nat.div_div_eq_div_mul, Nat.div_div_eq_div_mul, Nat.div_div_eq_div_mul]
    exact Nat.div_eq_of_lt (by rw [show base * (base * (base * base)) = base ^ 4 by ring]; exact h)
  rw [paddedDigits_succ hb, paddedDigits_succ hb, paddedDigits_succ hb, paddedDigits_succ hb, h0]
  simp [paddedDigits]

theorem digits_read (l : List Nat) (h : ∀ d ∈ l, d < 10) :
    ((l.reverse).map Nat.digitChar).foldl (fun a c => 10 * a + (c.toNat - 48)) 0 = Nat.ofDigits 10 l := by
  have hd : ∀ d < 10, (Nat.digitChar d).toNat - 48 = d := by decide
  induction l with
  | nil => rfl
  | cons d l ih =>
    rw [List.reverse_cons, List.map_append, List.foldl_append, ih fun d hd => h d (List.mem_cons_of_mem _ hd)]
    simp only [List.map_cons, List.map_nil, List.foldl_cons, List.foldl_nil]
    rw [hd d (h d (by simp)), Nat.ofDigits_cons]
    omega

theorem paddedDigits_read (n : Nat) :
    (paddedDigits 10 1 n).foldl (fun a c => 10 * a + (c.toNat - 48)) 0 = n := by
  have h := digits_read (Nat.digits 10 n ++ List.replicate (1 - (Nat.digits 10 n).reverse.length) 0) (by
    intro d hd
    rcases List.mem_append.mp hd with hd | hd
    · exact Nat.digits_lt_base (by norm_num) hd
    · rw [List.eq_of_mem_replicate hd]; norm_num)
  rw [List.reverse_append, List.reverse_replicate] at h
  unfold paddedDigits
  simp only
  rw [h, Nat.ofDigits_append, Nat.ofDigits_replicate_zero, Nat.ofDigits_digits]
  simp

theorem hexBytes_inj {a b : List UInt8} (h : hexBytes a = hexBytes b) : a = b := by
  unfold hexBytes at h
  induction a generalizing b with
  | nil =>
    cases b with
    | nil => rfl
    | cons y b =>
      have := congrArg List.length h
      cases b <;> simp [List.intercalate, paddedDigits_byte_length] at this
  | cons x a ih =>
    cases b with
    | nil =>
      have := congrArg List.length h
      cases a <;> simp [List.intercalate, paddedDigits_byte_length] at this
    | cons y b =>
      have hx := paddedDigits_byte_length x
      have hy := paddedDigits_byte_length y
      cases a with
      | nil =>
        cases b with
        | nil =>
          simp [List.intercalate] at h
          have := paddedDigits_inj (by norm_num) (by norm_num) h
          rw [UInt8.toNat_inj.mp this]
        | cons z b =>
          have := congrArg List.length h
          simp [List.intercalate, hx, hy] at this
      | cons w a =>
        cases b with
        | nil =>
          have := congrArg List.length h
          simp [List.intercalate, hx, hy] at this
        | cons z b =>
          simp only [List.map_cons, List.intercalate_cons_cons, List.append_assoc] at h
          obtain ⟨h1, h2⟩ := List.append_inj h (by rw [hx, hy])
          have := paddedDigits_inj (by norm_num) (by norm_num) h1
          rw [UInt8.toNat_inj.mp this]
          have h3 : (w :: a) = (z :: b) := ih (by simpa using h2)
          rw [h3]

theorem repr_inj (r s : Record) (h : r.repr = s.repr) : r = s := by
  unfold Record.repr at h
  have h10 : ∀ w n : Nat, ∀ c ∈ paddedDigits 10 w n, c ∉ [' ', '(', ')', '<', '>', '`', ']', '-'] :=
    fun w n => paddedDigits_plain (by norm_num) (by norm_num)
  have h16 : ∀ w n : Nat, ∀ c ∈ paddedDigits 16 w n, c ∉ [' ', '(', ')', '<', '>', '`', ']', '-'] :=
    fun w n => paddedDigits_plain (by norm_num) (by norm_num)
  obtain ⟨_, h⟩ := split_at (fun hc => h10 _ _ _ hc (by decide)) (fun hc => h10 _ _ _ hc (by decide)) h
  injection h with _ h
  obtain ⟨h1, h⟩ := split_at (fun hc => h16 _ _ _ hc (by decide)) (fun hc => h16 _ _ _ hc (by decide)) h
  have hid := paddedDigits_inj (by norm_num) (by norm_num) h1
  simp only [List.cons.injEq, true_and] at h
  obtain ⟨_, h⟩ := split_at (centred4_plain _) (centred4_plain _) h
  rw [hid] at h
  simp only [List.cons.injEq, true_and] at h
  have h := List.append_cancel_left h
  simp only [List.cons.injEq, true_and] at h
  have hd := hexBytes_inj (List.append_cancel_right h)
  cases r; cases s
  simp_all

/-! ## `col_idx` -/

theorem colIdxNumba_loop (l : Bytes) (a : Int) (i : Nat) :
    (l.foldl (fun (st : BitVec 64 × Nat) x =>
      if x.toNat > 64 then (st.1 + (BitVec.ofNat 64 x.toNat - 64#64) * (26#64 ^ st.2), st.2 + 1) else st)
      (BitVec.ofInt 64 a, i)) =
    (fun (p : Int × Nat) => (BitVec.ofInt 64 p.1, p.2)) (l.foldl (fun (st : Int × Nat) x =>
      if x.toNat > 64 then (st.1 + ((x.toNat : Int) - 64) * (26 ^ st.2), st.2 + 1) else st) (a, i)) := by
  induction l generalizing a i with
  | nil => rfl
  | cons x l ih =>
    simp only [List.foldl_cons]
    by_cases h : x.toNat > 64
    · rw [if_pos h, if_pos h]
      have hp : ∀ i : Nat, BitVec.ofInt 64 (26 ^ i) = 26#64 ^ i := by
        intro i
        induction i with
        | zero => rfl
        | succ i ih => rw [pow_succ, BitVec.pow_succ, BitVec.ofInt_mul, ih]; rfl
      have hs : BitVec.ofInt 64 ((x.toNat : Int) - 64) = BitVec.ofNat 64 x.toNat - 64#64 := by
        rw [sub_eq_add_neg, BitVec.ofInt_add, BitVec.sub_eq_add_neg]; rfl
      have e : BitVec.ofInt 64 (a + ((x.toNat : Int) - 64) * 26 ^ i) =
          BitVec.ofInt 64 a + (BitVec.ofNat 64 x.toNat - 64#64) * 26#64 ^ i := by
        rw [BitVec.ofInt_add, BitVec.ofInt_mul, hs, hp]
      have := ih (a + ((x.toNat : Int) - 64) * 26 ^ i) (i + 1)
      rw [e] at this
      exact this
    · rw [if_neg h, if_neg h, ih]

theorem colIdxNumba_eq (col : Bytes) : colIdxNumba col = (BitVec.ofInt 32 (colIdx col)).toInt := by
  unfold colIdxNumba colIdx
  have := colIdxNumba_loop col.reverse (-1) 0
  rw [show BitVec.ofInt 64 (-1) = (-1 : BitVec 64) from by decide] at this
  rw [this]
  congr 1
  simp only
  generalize (List.foldl (fun (st : Int × Nat) (x : UInt8) => if x.toNat > 64 then
    (st.1 + ((x.toNat : Int) - 64) * (26 ^ st.2), st.2 + 1) else st) ((-1 : Int), 0) col.reverse).1 = z
  apply BitVec.eq_of_toNat_eq
  rw [BitVec.toNat_setWidth, BitVec.toNat_ofInt, BitVec.toNat_ofInt]
  push_cast
  omega

end Rxls
