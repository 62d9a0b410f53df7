import Verif.Model.NumText
import Verif.Spec.NumText
import Verif.Lemmas.F64
import Verif.Props.EndToEndXlsx

/-! # Property C87: numbers of XLSX cells -/

namespace Rxls

theorem isDigit_numeral : ∀ d : Fin 10, isDigitChar (numeral d) = true ∧ (numeral d).toNat - 48 = d.val ∧
    numeral d ≠ '_' ∧ numeral d ≠ '-' ∧ numeral d ≠ '+' ∧ pySpace (numeral d) = false ∧
    lowerAscii (numeral d) ≠ 'i' ∧ lowerAscii (numeral d) ≠ 'n' ∧ numeral d ≠ '.' := by decide +kernel

theorem digitsNat_append (a b : Str) : digitsNat (a ++ b) = digitsNat a * 10 ^ b.length + digitsNat b := by
  have key : ∀ (b : Str) (n : Nat), b.foldl (fun n c => 10 * n + (c.toNat - 48)) n = n * 10 ^ b.length + digitsNat b := by
    intro b
    induction b with
    | nil => intro n; simp [digitsNat]
    | cons c b ih =>
      intro n
      simp only [digitsNat, List.foldl_cons, List.length_cons]
      rw [ih, ih]
      ring
  unfold digitsNat
  rw [List.foldl_append, key b]
  rfl

theorem digitsNat_whole (ds : List (Fin 10)) : digitsNat (ds.map numeral) = wholeValue ds := by
  induction ds with
  | nil => rfl
  | cons d ds ih =>
    rw [List.map_cons, show numeral d :: ds.map numeral = [numeral d] ++ ds.map numeral from rfl,
      digitsNat_append, ih, wholeValue, List.length_map]
    have : digitsNat [numeral d] = d.val := by
      simp [digitsNat, (isDigit_numeral d).2.1]
    rw [this]

theorem wholeValue_frac (ds : List (Fin 10)) : (wholeValue ds : ℚ) = fracValue ds * 10 ^ ds.length := by
  induction ds with
  | nil => simp [wholeValue, fracValue]
  | cons d ds ih =>
    rw [wholeValue, fracValue, List.length_cons]
    push_cast
    rw [ih]
    ring

/-- Characters of a number. -/
def numChar (c : Char) : Bool := isDigitChar c || c == '+' || c == '-' || c == '.' || c == 'e' || c == 'E'

theorem numChar_facts (c : Char) (h : numChar c = true) : c ≠ '_' ∧ pySpace c = false := by
  unfold numChar isDigitChar at h
  simp only [Bool.or_eq_true, Bool.and_eq_true, decide_eq_true_eq, beq_iff_eq] at h
  rcases h with ((((h | rfl) | rfl) | rfl) | rfl) | rfl
  · refine ⟨?_, ?_⟩
    · rintro rfl
      revert h; decide
    · unfold pySpace
      simp only [Bool.or_eq_false_iff, Bool.and_eq_false_iff, decide_eq_false_iff_not, beq_eq_false_iff_ne]
      omega
  all_goals decide

theorem numeral_num (d : Fin 10) : numChar (numeral d) = true := by
  simp [numChar, (isDigit_numeral d).1]

theorem signText_num (s : Option Bool) : ∀ c ∈ signText s, numChar c = true := by
  rcases s with _ | _ | _ <;> simp [signText, numChar]

theorem Decimal.text_num (d : Decimal) : ∀ c ∈ d.text, numChar c = true := by
  intro c hc
  unfold Decimal.text at hc
  simp only [List.mem_append, List.mem_map] at hc
  rcases hc with (((h | ⟨x, -, rfl⟩) | h) | ⟨x, -, rfl⟩) | h
  · exact signText_num _ c h
  · exact numeral_num x
  · split at h
    · simp only [List.mem_singleton] at h; subst h; rfl
    · cases h
  · exact numeral_num x
  · split at h
    · cases h
    · simp only [List.mem_cons, List.mem_append, List.mem_map] at h
      rcases h with h | h | ⟨x, -, rfl⟩
      · split at h <;> subst h <;> rfl
      · exact signText_num _ c h
      · exact numeral_num x

theorem pyStrip_of_num (s : Str) (h : ∀ c ∈ s, numChar c = true) : pyStrip s = s := by
  have hd : ∀ t : Str, (∀ c ∈ t, numChar c = true) → t.dropWhile pySpace = t := by
    intro t ht
    cases t with
    | nil => rfl
    | cons c t => rw [List.dropWhile_cons, (numChar_facts c (ht c (by simp))).2]; rfl
  unfold pyStrip
  rw [hd s h, hd s.reverse (fun c hc => h c (List.mem_reverse.mp hc)), List.reverse_reverse]

theorem dropUnderscores_of_num : ∀ (s : Str) (p : Char), p ≠ '_' → (∀ c ∈ s, numChar c = true) →
    dropUnderscores p s = some s
  | [], p, hp, _ => by simp [dropUnderscores, hp]
  | c :: s, p, hp, h => by
    have hc := (numChar_facts c (h c (by simp))).1
    rw [dropUnderscores, if_neg hc, if_neg (by simp [hp]),
      dropUnderscores_of_num s c hc fun x hx => h x (by simp [hx])]
    rfl

theorem readSign_signText (s : Option Bool) (r : Str) (hr : ∀ c, r.head? = some c → c ≠ '-' ∧ c ≠ '+') :
    readSign (signText s ++ r) = (decide (s = some true), r) := by
  rcases s with _ | _ | _
  · cases r with
    | nil => rfl
    | cons c r =>
      have := hr c rfl
      simp only [signText, List.nil_append, readSign]
      split
      · rename_i h; injection h with h; exact absurd h this.1
      · rename_i h; injection h with h; exact absurd h this.2
      · simp
  · simp [signText, readSign]
  · simp [signText, readSign]

theorem takeWhile_digits (ds : List (Fin 10)) (r : Str) (hr : ∀ c, r.head? = some c → isDigitChar c = false) :
    (ds.map numeral ++ r).takeWhile isDigitChar = ds.map numeral ∧
    (ds.map numeral ++ r).dropWhile isDigitChar = r := by
  induction ds with
  | nil =>
    cases r with
    | nil => simp
    | cons c r => simp [hr c rfl]
  | cons d ds ih =>
    simp only [List.map_cons, List.cons_append, List.takeWhile_cons, List.dropWhile_cons, (isDigit_numeral d).1, if_true]
    exact ⟨by rw [ih.1], ih.2⟩

/-- The part of the text after the digits. -/
def Decimal.expText (d : Decimal) : Str :=
  match d.exp with
  | none => []
  | some (upper, sign, ds) => (if upper then 'E' else 'e') :: (signText sign ++ ds.map numeral)

theorem digits_head (ds : List (Fin 10)) (c : Char) (h : (ds.map numeral).head? = some c) : c ≠ '-' ∧ c ≠ '+' := by
  cases ds with
  | nil => cases h
  | cons d ds =>
    simp only [List.map_cons, List.head?_cons, Option.some.injEq] at h
    subst h
    have := isDigit_numeral d
    exact ⟨this.2.2.2.1, this.2.2.2.2.1⟩

theorem readExponent_expText (d : Decimal) (h : d.Ok) : readExponent d.expText = some (expValue d.exp) := by
  unfold Decimal.expText
  cases he : d.exp with
  | none => rfl
  | some e =>
    obtain ⟨upper, sign, ds⟩ := e
    have hne := h.exp _ he
    simp only at hne ⊢
    have hs := readSign_signText sign (ds.map numeral) (digits_head ds)
    unfold readExponent
    simp only [hs]
    rw [if_pos (by cases upper <;> simp), if_pos ⟨by simpa using hne, by simp [(isDigit_numeral _).1]⟩, digitsNat_whole]
    simp only [expValue, decide_eq_true_eq]

theorem expText_head (d : Decimal) (c : Char) (h : d.expText.head? = some c) : isDigitChar c = false ∧ c ≠ '.' := by
  unfold Decimal.expText at h
  split at h
  · cases h
  · rename_i upper sign ds _
    cases upper <;> simp at h <;> subst h <;> decide

/-- C87.  A decimal number, however written, is read as the binary64 number nearest to it. -/
theorem C87_number_text (d : Decimal) (h : d.Ok) : pyFloatText d.text = some (rnd d.value) := by
  have hnum := d.text_num
  unfold pyFloatText
  rw [pyStrip_of_num _ hnum, dropUnderscores_of_num _ _ (by decide) hnum]
  simp only
  have e0 : d.text = signText d.sign ++ (d.whole.map numeral ++ ((if d.point then ['.'] else []) ++
      (d.frac.map numeral ++ d.expText))) := by
    unfold Decimal.text Decimal.expText
    simp only [List.append_assoc]
    rfl
  generalize hbody : d.whole.map numeral ++ ((if d.point then ['.'] else []) ++
      (d.frac.map numeral ++ d.expText)) = body at e0
  -- the body begins with a digit or a point
  have hhead : ∀ c, body.head? = some c → c ≠ '-' ∧ c ≠ '+' ∧ lowerAscii c ≠ 'i' ∧ lowerAscii c ≠ 'n' := by
    intro c hc
    rw [← hbody] at hc
    cases hw : d.whole with
    | cons x xs =>
      rw [hw] at hc
      simp at hc
      subst hc
      have := isDigit_numeral x
      exact ⟨this.2.2.2.1, this.2.2.2.2.1, this.2.2.2.2.2.2.1, this.2.2.2.2.2.2.2.1⟩
    | nil =>
      rw [hw] at hc
      cases hp : d.point with
      | true =>
        rw [hp] at hc
        simp at hc
        subst hc
        decide
      | false =>
        have := h.point hp
        rcases h.digit with h' | h'
        · exact absurd hw h'
        · exact absurd this h'
  have hs : readSign d.text = (decide (d.sign = some true), body) := by
    rw [e0]
    exact readSign_signText _ _ fun c hc => ⟨(hhead c hc).1, (hhead c hc).2.1⟩
  have hbne : body ≠ [] := by
    rintro rfl
    rw [List.append_eq_nil_iff, List.append_eq_nil_iff, List.append_eq_nil_iff] at hbody
    simp only [List.map_eq_nil_iff] at hbody
    rcases h.digit with h' | h'
    · exact h' hbody.1
    · exact h' hbody.2.2.1
  obtain ⟨c, tl, rfl⟩ : ∃ c tl, body = c :: tl := by
    cases body with
    | nil => exact absurd rfl hbne
    | cons c tl => exact ⟨c, tl, rfl⟩
  have hc := hhead c rfl
  unfold strtod
  simp only [hs]
  rw [if_neg (by
      rintro (h | h) <;> · rw [List.map_cons] at h; injection h with h; exact hc.2.2.1 h),
    if_neg (by intro h; rw [List.map_cons] at h; injection h with h; exact hc.2.2.2 h)]
  rw [← hbody]
  have hmid : ∀ c, ((if d.point then ['.'] else []) ++ (d.frac.map numeral ++ d.expText)).head? = some c →
      isDigitChar c = false := by
    intro c hc
    cases hp : d.point with
    | true => rw [hp] at hc; simp at hc; subst hc; decide
    | false =>
      rw [hp, h.point hp] at hc
      simp at hc
      exact (expText_head d c (by simpa using hc)).1
  rw [(takeWhile_digits d.whole _ hmid).1, (takeWhile_digits d.whole _ hmid).2]
  have hexp := takeWhile_digits d.frac d.expText fun c hc => (expText_head d c hc).1
  have hdot : (((if d.point then ['.'] else []) ++ (d.frac.map numeral ++ d.expText)).head? = some '.') ↔
      d.point = true := by
    cases hp : d.point with
    | true => simp
    | false =>
      rw [h.point hp]
      simp
      intro hh
      exact (expText_head d '.' (by simpa using hh)).2 rfl
  simp only [hdot]
  have hfrac : (if d.point = true then
      (((if d.point then ['.'] else []) ++ (d.frac.map numeral ++ d.expText)).drop 1).takeWhile isDigitChar else []) =
      d.frac.map numeral := by
    cases hp : d.point with
    | true => simpa using hexp.1
    | false => simp [h.point hp]
  have htail : (if d.point = true then
      (((if d.point then ['.'] else []) ++ (d.frac.map numeral ++ d.expText)).drop 1).dropWhile isDigitChar
      else (if d.point then ['.'] else []) ++ (d.frac.map numeral ++ d.expText)) = d.expText := by
    cases hp : d.point with
    | true => simpa using hexp.2
    | false => simp [h.point hp]
  rw [hfrac, htail, if_neg (by
    simp only [List.map_eq_nil_iff]
    rintro ⟨h1, h2⟩
    rcases h.digit with h' | h'
    · exact h' h1
    · exact h' h2), readExponent_expText d h]
  simp only [decide_eq_true_eq, List.length_map, Option.some.injEq]
  congr 1
  unfold Decimal.value signed
  have : ((digitsNat (d.whole.map numeral ++ d.frac.map numeral) : ℕ) : ℚ) * (10 : ℚ) ^ (expValue d.exp - d.frac.length) =
      ((wholeValue d.whole : ℚ) + fracValue d.frac) * (10 : ℚ) ^ expValue d.exp := by
    rw [digitsNat_append, digitsNat_whole, digitsNat_whole, List.length_map]
    push_cast
    rw [wholeValue_frac d.frac, zpow_sub₀ (by norm_num), zpow_natCast]
    field_simp
  rw [this]

/-- A decimal number for the examples. -/
def exDecimal : Decimal := ⟨some true, [1, 2], true, [5, 0], some (true, some true, [0, 2])⟩

example : exDecimal.text = ['-', '1', '2', '.', '5', '0', 'E', '-', '0', '2'] ∧
    pyFloatText [' ', '-', '1', '2', '.', '5', '0', 'E', '-', '0', '2'] = some (rnd (-1 / 8)) ∧
    rnd (-1 / 8) = .fin (-1 / 8) ∧
    pyFloatText ['.', '5'] = some (.fin (1 / 2)) ∧ pyFloatText ['5', '.'] = some (.fin 5) ∧
    pyFloatText ['5', 'e'] = none ∧ pyFloatText ['.'] = none ∧ pyFloatText ['1', ',', '5'] = none ∧
    pyFloatText ['-', ' ', '5'] = none ∧ pyFloatText [] = none := by decide +kernel

/-- Two binary64 numbers are not closer than one part in 2^53. -/
theorem float_gap {x y : ℚ} (hx : IsFloat x) (hy : IsFloat y) (hne : x ≠ y) : |x| * (2 : ℚ) ^ (-53 : ℤ) ≤ |x - y| := by
  obtain ⟨m, e, hm, -, rfl⟩ := hx
  obtain ⟨n, f, hn, -, rfl⟩ := hy
  have pe := two_zpow_pos e
  have pf := two_zpow_pos f
  have h53 : (2 : ℚ) ^ (-53 : ℤ) = 1 / 2 ^ 53 := by rw [zpow_neg]; norm_num
  have hm' : |(m : ℚ)| ≤ 2 ^ 53 - 1 := by
    have : |m| ≤ 2 ^ 53 - 1 := by omega
    rw [← Int.cast_abs]; exact_mod_cast this
  have hn' : |(n : ℚ)| ≤ 2 ^ 53 - 1 := by
    have : |n| ≤ 2 ^ 53 - 1 := by omega
    rw [← Int.cast_abs]; exact_mod_cast this
  -- a difference that is a non-zero multiple of `u` is at least `u`
  have hmul : ∀ (u : ℚ) (k : ℤ), 0 < u → (m : ℚ) * (2 : ℚ) ^ e - n * (2 : ℚ) ^ f = k * u →
      u ≤ |(m : ℚ) * (2 : ℚ) ^ e - n * (2 : ℚ) ^ f| := by
    intro u k hu hk
    have hk0 : k ≠ 0 := by
      rintro rfl
      apply hne
      have : (m : ℚ) * (2 : ℚ) ^ e - n * (2 : ℚ) ^ f = 0 := by rw [hk]; simp
      linarith
    have : (1 : ℚ) ≤ |(k : ℚ)| := by rw [← Int.cast_abs]; exact_mod_cast Int.one_le_abs hk0
    rw [hk, abs_mul, abs_of_pos hu]
    nlinarith
  rw [h53, abs_mul, abs_of_pos pe]
  rcases le_or_gt e f with hef | hef
  · obtain ⟨k, hk⟩ := two_zpow_int (k := f - e) (by omega)
    have := hmul ((2 : ℚ) ^ e) (m - n * k) pe (by
      push_cast
      rw [← hk, sub_mul, mul_assoc, ← two_zpow_add]
      simp)
    refine le_trans ?_ this
    rw [mul_one_div, div_le_iff₀ (by positivity)]
    nlinarith
  · obtain ⟨k, hk⟩ := two_zpow_int (k := e - f) (by omega)
    have := hmul ((2 : ℚ) ^ f) (m * k - n) pf (by
      push_cast
      rw [← hk, sub_mul, mul_assoc, ← two_zpow_add]
      simp)
    by_cases hb : |(m : ℚ)| * (2 : ℚ) ^ e ≤ 2 ^ 53 * (2 : ℚ) ^ f
    · refine le_trans ?_ this
      rw [mul_one_div, div_le_iff₀ (by positivity)]
      linarith
    · push Not at hb
      have h1 : |(m : ℚ) * (2 : ℚ) ^ e| - |(n : ℚ) * (2 : ℚ) ^ f| ≤ |(m : ℚ) * (2 : ℚ) ^ e - n * (2 : ℚ) ^ f| :=
        abs_sub_abs_le_abs_sub _ _
      rw [abs_mul, abs_mul, abs_of_pos pe, abs_of_pos pf] at h1
      refine le_trans ?_ h1
      rw [mul_one_div, div_le_iff₀ (by positivity)]
      nlinarith

/-- A number within half a unit of the 17th significant digit of a binary64 number rounds to it. -/
theorem rnd_near {x : ℚ} (hx : IsF64 x) (q : ℚ) (h : |q - x| ≤ |x| / (2 * 10 ^ 16)) : rnd q = .fin x := by
  have h1 := rndQ_nearest hx.1 q
  have : rndQ q = x := by
    by_contra hne
    have h2 := float_gap hx.1 (rndQ_isFloat q) (Ne.symm hne)
    have h3 : |x - rndQ q| ≤ |x| / 10 ^ 16 := by
      have e : x - rndQ q = (x - q) + (q - rndQ q) := by ring
      rw [e]
      refine le_trans (abs_add_le _ _) ?_
      rw [abs_sub_comm q (rndQ q), abs_sub_comm x q]
      rw [abs_sub_comm x q] at h1
      have : |x| / 10 ^ 16 = |x| / (2 * 10 ^ 16) + |x| / (2 * 10 ^ 16) := by ring
      linarith
    have h53 : (2 : ℚ) ^ (-53 : ℤ) = 1 / 2 ^ 53 := by rw [zpow_neg]; norm_num
    rw [h53] at h2
    have hx0 : 0 ≤ |x| := abs_nonneg x
    have hz : |x| = 0 := by
      by_contra hz
      have : 0 < |x| := lt_of_le_of_ne hx0 (Ne.symm hz)
      have := le_trans h2 h3
      rw [mul_one_div, div_le_div_iff₀ (by norm_num) (by norm_num)] at this
      norm_num at this
      nlinarith
    rw [hz] at h3
    have : x - rndQ q = 0 := abs_eq_zero.mp (le_antisymm (by simpa using h3) (abs_nonneg _))
    apply hne
    linarith
  unfold rnd
  rw [this, if_pos hx.2]

/-- C87.  A binary64 number written with 17 significant digits, or more, is read back as it is.  (The 17th digit of `x`
is worth at most `|x| / 10^16`, and the error of the writer is at most half of that.) -/
theorem C87_seventeen_digits (x : ℚ) (hx : IsF64 x) (d : Decimal) (h : d.Ok) (hd : |d.value - x| ≤ |x| / (2 * 10 ^ 16)) :
    pyFloatText d.text = some (.fin x) := by
  rw [C87_number_text d h, rnd_near hx _ hd]

/-- C87.  A number or a date is the same value in both formats: in XLSX as a decimal number of 17 digits or more in a cell
with a number or date format, in XLSB as the binary64 number itself. -/
theorem C87_both_formats (env : Env) (he : env.pyFloat = pyFloatText) (x : ℚ) (hx : IsF64 x) (d : Decimal) (h : d.Ok)
    (hd : |d.value - x| ≤ |x| / (2 * 10 ^ 16)) (formats : List StyleClass) (sharedx sharedb : List Str)
    (temporal : List Bytes) (cx : TCell) (cb : GCell) (w : Nat) (hcx : cx.content = .plain d.text)
    (hcb : cb.content = .real w) (hw : F64.ofBits w = .fin x)
    (hcls : cx.cls formats = if cb.style ∈ temporal then .temporal else .numeric) :
    cx.value env formats sharedx = some (cb.value temporal sharedb) := by
  have hp : env.pyFloat (pyStrip d.text) = some (.fin x) := by
    rw [he, pyStrip_of_num _ d.text_num]
    exact C87_seventeen_digits x hx d h hd
  unfold TCell.value GCell.value
  rw [hcx, hcb]
  simp only [hcls]
  split <;> rename_i hc <;> split at hc <;> simp_all

/-- C87.  The number of a shared string, as any program writes it, is read as that number. -/
theorem C87_shared_number (i : Nat) : pyIntText (pyStr i) = some i := by
  have key : ∃ ds : List (Fin 10), pyStr i = ds.map numeral ∧ wholeValue ds = i ∧ ds ≠ [] := by
    unfold pyStr
    induction i using Nat.strong_induction_on with
    | _ i ih =>
      by_cases hi : i < 10
      · refine ⟨[⟨i, hi⟩], ?_, by simp [wholeValue], by simp⟩
        have : ∀ i : Fin 10, Nat.toDigits 10 i.val = [numeral i] := by decide +kernel
        simpa using this ⟨i, hi⟩
      · obtain ⟨ds, h1, h2, h3⟩ := ih (i / 10) (by omega)
        refine ⟨ds ++ [⟨i % 10, by omega⟩], ?_, ?_, by simp⟩
        · rw [Nat.toDigits_of_base_le (by norm_num) (by omega), h1, List.map_append]
          have : ∀ j : Fin 10, Nat.digitChar j.val = numeral j := by decide +kernel
          have := this ⟨i % 10, by omega⟩
          simp only at this
          simp [this]
        · have app : ∀ (l : List (Fin 10)) (k : Fin 10), wholeValue (l ++ [k]) = 10 * wholeValue l + k.val := by
            intro l k
            induction l with
            | nil => simp [wholeValue]
            | cons a l ihl =>
              rw [List.cons_append, wholeValue, wholeValue, ihl, List.length_append, List.length_singleton]
              ring
          rw [app, h2]
          simp only
          omega
  obtain ⟨ds, h1, h2, h3⟩ := key
  have hnum : ∀ c ∈ ds.map numeral, numChar c = true := by
    intro c hc
    obtain ⟨x, -, rfl⟩ := List.mem_map.mp hc
    exact numeral_num x
  rw [h1]
  unfold pyIntText
  rw [pyStrip_of_num _ hnum, dropUnderscores_of_num _ _ (by decide) hnum]
  simp only
  rw [if_neg (fun hh => (digits_head ds '+' hh).2 rfl), if_pos ⟨by simpa using h3, by simp [(isDigit_numeral _).1]⟩,
    digitsNat_whole, h2]

example : pyIntText ['4', '2'] = some 42 ∧ pyIntText ['+', '4', '_', '2', ' '] = some 42 ∧ pyIntText ['4', '.'] = none ∧
    pyIntText [] = none := by decide +kernel

/-- Finding: the type of a cell counts only if it says that the text is a shared one (C42), and Python's numbers are more
than those of the file format.  So a text in a cell with a number format is a number when Python takes it for one:
`1_000`, `007`, `nan`, `Infinity`. -/
theorem C87_text_becomes_number :
    pyFloatText ['1', '_', '0', '0', '0'] = some (.fin 1000) ∧ pyFloatText ['0', '0', '7'] = some (.fin 7) ∧
    pyFloatText ['n', 'a', 'n'] = some .nan ∧ pyFloatText "Infinity".toList = some (.inf false) ∧
    pyFloatText ['1', '_', '_', '0'] = none ∧ pyFloatText ['1', '_'] = none ∧ pyFloatText ['_', '1'] = none := by
  decide +kernel

/-- The example file with a cell of type `str` (the text of a formula) in a number format. -/
def exFormulaText (s : Str) : XlsxFile :=
  { exXlsxFile with
    parts := fun p => if p = ['x', 'l', '/', 's', '1'] then some ⟨
      [.start tagRow [], .start tagC [(attR, ['A', '1']), (attS, ['2']), (attT, ['s', 't', 'r'])], .start tagV [], .text s,
        .close tagV, .close tagC, .close tagRow], false⟩ else none }

example : (readXlsx { demoEnv with pyFloat := pyFloatText } exLib (fun _ => none) (fun _ _ => .ok false) exInt
      (fun s => s == ['-']) exConcat {} {} (exFormulaText ['0', '0', '7'])).map (·.arrays) =
        .ok [.arr ⟨.i8, [some (.i8 7)]⟩] ∧
    (readXlsx { demoEnv with pyFloat := pyFloatText } exLib (fun _ => none) (fun _ _ => .ok false) exInt
      (fun s => s == ['-']) exConcat {} {} (exFormulaText ['n', 'a', 'n'])).map (·.arrays) =
        .ok [.arr ⟨.f8, [some (.f8 .nan)]⟩] ∧
    (readXlsx { demoEnv with pyFloat := pyFloatText } exLib (fun _ => none) (fun _ _ => .ok false) exInt
      (fun s => s == ['-']) exConcat {} {} (exFormulaText ['0', '0', '7', 'x'])).map (·.arrays) =
        .ok [.arr ⟨.utf8, [some (.str ['0', '0', '7', 'x'])]⟩] := by
  decide +kernel

end Rxls
