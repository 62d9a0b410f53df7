import Verif.Model.ArrowText
import Verif.Spec.DateText
import Verif.Spec.Numbers
import Verif.Props.NumText

/-! # Property C89: numeric texts -/

namespace Rxls

theorem digit_numeral (c : Char) (h : isDigitChar c = true) : ∃ d : Fin 10, numeral d = c := by
  unfold isDigitChar at h
  simp only [Bool.and_eq_true, decide_eq_true_eq] at h
  refine ⟨⟨c.toNat - 48, by omega⟩, ?_⟩
  unfold numeral
  simp only
  rw [show 48 + (c.toNat - 48) = c.toNat by omega, Char.ofNat_toNat]

theorem digits_numeral (s : Str) (h : s.all isDigitChar = true) : ∃ ds : List (Fin 10), ds.map numeral = s := by
  induction s with
  | nil => exact ⟨[], rfl⟩
  | cons c s ih =>
    rw [List.all_cons, Bool.and_eq_true] at h
    obtain ⟨d, rfl⟩ := digit_numeral c h.1
    obtain ⟨ds, rfl⟩ := ih h.2
    exact ⟨d :: ds, rfl⟩

theorem takeWhile_numeral (s : Str) : ∃ ds : List (Fin 10), ds.map numeral = s.takeWhile isDigitChar :=
  digits_numeral _ (List.all_takeWhile)

theorem readSign_text (s : Str) : ∃ g : Option Bool, s = signText g ++ (readSign s).2 ∧
    (readSign s).1 = decide (g = some true) ∧ (g = some false ↔ s.head? = some '+') := by
  cases s with
  | nil => exact ⟨none, rfl, rfl, by simp⟩
  | cons c r =>
    by_cases h1 : c = '-'
    · subst h1; exact ⟨some true, rfl, rfl, by simp⟩
    · by_cases h2 : c = '+'
      · subst h2; exact ⟨some false, rfl, rfl, by simp⟩
      · refine ⟨none, ?_, ?_, by simp [h2]⟩
        · rw [readSign]
          · rfl
          · intro r' e; injection e with e; exact h1 e
          · intro r' e; injection e with e; exact h2 e
        · rw [readSign]
          · rfl
          · intro r' e; injection e with e; exact h1 e
          · intro r' e; injection e with e; exact h2 e

theorem readExponent_text (t : Str) (e : Int) (h : readExponent t = some e) :
    ∃ x : Option (Bool × Option Bool × List (Fin 10)), (∀ y, x = some y → y.2.2 ≠ []) ∧ expValue x = e ∧
      t = (match x with
        | none => []
        | some (upper, sign, ds) => (if upper then 'E' else 'e') :: (signText sign ++ ds.map numeral)) := by
  cases t with
  | nil =>
    simp only [readExponent, Option.some.injEq] at h
    exact ⟨none, by simp, h, rfl⟩
  | cons c r =>
    simp only [readExponent] at h
    by_cases hc : c = 'e' ∨ c = 'E'
    · rw [if_pos hc] at h
      obtain ⟨g, hg1, hg2, -⟩ := readSign_text r
      by_cases hd : (readSign r).2 ≠ [] ∧ (readSign r).2.all isDigitChar = true
      · rw [if_pos hd] at h
        obtain ⟨ds, hds⟩ := digits_numeral _ hd.2
        simp only [Option.some.injEq] at h
        refine ⟨some (decide (c = 'E'), g, ds), ?_, ?_, ?_⟩
        · intro y hy
          simp only [Option.some.injEq] at hy
          subst hy
          rintro rfl
          exact hd.1 hds.symm
        · rw [← h, ← hds, digitsNat_whole, hg2]
          simp only [expValue, decide_eq_true_eq]
        · simp only
          rw [hds, ← hg1]
          rcases hc with rfl | rfl <;> rfl
      · rw [if_neg hd] at h
        cases h
    · rw [if_neg hc] at h
      cases h

/-- The words for infinity and no number. -/
def numberWords : List Str := [['i', 'n', 'f'], ['i', 'n', 'f', 'i', 'n', 'i', 't', 'y'], ['n', 'a', 'n']]

/-- What `strtod` takes is a decimal number or such a word. -/
theorem strtod_some (u : Str) (x : F64) (h : strtod u = some x) :
    (∃ d : Decimal, d.Ok ∧ u = d.text ∧ x = rnd d.value) ∨ (readSign u).2.map lowerAscii ∈ numberWords := by
  by_cases hw : (readSign u).2.map lowerAscii ∈ numberWords
  · exact .inr hw
  · refine .inl ?_
    simp only [numberWords, List.mem_cons, List.not_mem_nil, or_false, not_or] at hw
    obtain ⟨g, hg1, hg2, -⟩ := readSign_text u
    generalize hb : (readSign u).2 = body at *
    obtain ⟨ws, hws⟩ := takeWhile_numeral body
    have key : ∃ d : Decimal, d.Ok ∧ u = d.text := by
      unfold strtod at h
      simp only [hb] at h
      rw [if_neg (by rintro (h | h); exacts [hw.1 h, hw.2.1 h]), if_neg hw.2.2] at h
      by_cases hdot : (body.dropWhile isDigitChar).head? = some '.'
      · simp only [hdot, if_true] at h
        by_cases hne : body.takeWhile isDigitChar = [] ∧ ((body.dropWhile isDigitChar).drop 1).takeWhile isDigitChar = []
        · rw [if_pos hne] at h; cases h
        rw [if_neg hne] at h
        cases he : readExponent (((body.dropWhile isDigitChar).drop 1).dropWhile isDigitChar) with
        | none => rw [he] at h; cases h
        | some e =>
          obtain ⟨fs, hfs⟩ := takeWhile_numeral ((body.dropWhile isDigitChar).drop 1)
          obtain ⟨ex, he1, -, he3⟩ := readExponent_text _ _ he
          refine ⟨⟨g, ws, true, fs, ex⟩, ⟨?_, by simp, he1⟩, ?_⟩
          · by_contra hcon
            simp only [ne_eq, not_or, not_not] at hcon
            refine hne ⟨?_, ?_⟩
            · rw [← hws, hcon.1]; rfl
            · rw [← hfs, hcon.2]; rfl
          · conv_lhs => rw [hg1, ← List.takeWhile_append_dropWhile (p := isDigitChar) (l := body)]
            cases hr : body.dropWhile isDigitChar with
            | nil => rw [hr] at hdot; cases hdot
            | cons c r =>
              rw [hr] at hdot hfs he3
              simp only [List.head?_cons, Option.some.injEq] at hdot
              subst hdot
              simp only [List.drop_succ_cons, List.drop_zero] at hfs he3
              calc signText g ++ (body.takeWhile isDigitChar ++ '.' :: r)
                  = signText g ++ ws.map numeral ++ ['.'] ++ fs.map numeral ++ r.dropWhile isDigitChar := by
                    rw [hws, hfs]
                    simp [List.append_assoc]
                _ = _ := by rw [he3]; rfl
      · simp only [hdot, if_false] at h
        by_cases hne : body.takeWhile isDigitChar = []
        · rw [if_pos ⟨hne, trivial⟩] at h; cases h
        rw [if_neg fun h => hne h.1] at h
        cases he : readExponent (body.dropWhile isDigitChar) with
        | none => rw [he] at h; cases h
        | some e =>
          obtain ⟨ex, he1, -, he3⟩ := readExponent_text _ _ he
          refine ⟨⟨g, ws, false, [], ex⟩, ⟨?_, by simp, he1⟩, ?_⟩
          · left
            rintro rfl
            exact hne hws.symm
          · conv_lhs => rw [hg1, ← List.takeWhile_append_dropWhile (p := isDigitChar) (l := body)]
            calc signText g ++ (body.takeWhile isDigitChar ++ body.dropWhile isDigitChar)
                = signText g ++ ws.map numeral ++ [] ++ ([] : List (Fin 10)).map numeral ++ body.dropWhile isDigitChar := by
                  rw [hws]
                  simp [List.append_assoc]
              _ = _ := by rw [he3]; rfl
    obtain ⟨d, hd, rfl⟩ := key
    refine ⟨d, hd, rfl, ?_⟩
    have := C87_number_text d hd
    unfold pyFloatText at this
    rw [pyStrip_of_num _ d.text_num, dropUnderscores_of_num _ _ (by decide) d.text_num] at this
    simp only at this
    rw [h] at this
    exact (Option.some.inj this)

theorem strtod_text (d : Decimal) (h : d.Ok) : strtod d.text = some (rnd d.value) := by
  have := C87_number_text d h
  unfold pyFloatText at this
  rwa [pyStrip_of_num _ d.text_num, dropUnderscores_of_num _ _ (by decide) d.text_num] at this

theorem lower_eq (c : Char) : lowerAscii c = c.toLower := by
  by_cases h : 65 ≤ c.toNat ∧ c.toNat ≤ 90
  · have key : ∀ k : Fin 26, lowerAscii (Char.ofNat (65 + k.val)) = (Char.ofNat (65 + k.val)).toLower := by decide +kernel
    have := key ⟨c.toNat - 65, by omega⟩
    simp only at this
    rwa [show 65 + (c.toNat - 65) = c.toNat by omega, Char.ofNat_toNat] at this
  · unfold lowerAscii Char.toLower
    have h2 : ¬ (c.val ≥ 'A'.val ∧ c.val ≤ 'Z'.val) := by
      rintro ⟨h1, h2⟩
      exact h ⟨UInt32.le_iff_toNat_le.mp h1, UInt32.le_iff_toNat_le.mp h2⟩
    rw [dif_neg h2, if_neg (by simpa using h)]

theorem decimal_no_plus (d : Decimal) (h : d.Ok) : d.text.head? = some '+' ↔ d.sign = some false := by
  unfold Decimal.text
  rcases hs : d.sign with _ | _ | _
  · simp only [reduceCtorEq, iff_false]
    intro hp
    cases hwh : d.whole with
    | cons y ys =>
      rw [hwh] at hp
      simp [signText] at hp
      exact (isDigit_numeral y).2.2.2.2.1 hp
    | nil =>
      cases hpt : d.point with
      | true => rw [hwh, hpt] at hp; simp [signText] at hp
      | false =>
        rcases h.digit with h' | h'
        · exact h' hwh
        · exact h' (h.point hpt)
  · simp [signText]
  · simp [signText]

/-- A word is not preceded by another sign. -/
theorem readSign_word (g : Option Bool) (w : Str) (c : Char) (r : Str) (h : w.map lowerAscii = c :: r) (hc : c = 'i' ∨ c = 'n') :
    readSign (signText g ++ w) = (decide (g = some true), w) := by
  rcases g with _ | _ | _
  · cases w with
    | nil => simp at h
    | cons x w =>
      simp only [List.map_cons, List.cons.injEq] at h
      have h1 : x ≠ '-' := by rintro rfl; rcases hc with rfl | rfl <;> exact absurd h.1 (by decide)
      have h2 : x ≠ '+' := by rintro rfl; rcases hc with rfl | rfl <;> exact absurd h.1 (by decide)
      simp only [signText, List.nil_append, readSign]
      split <;> simp_all
  · rfl
  · rfl

/-- What `strtod` takes, and its value. -/
theorem strtod_exact (u : Str) (x : F64) : strtod u = some x ↔ WritesNumber u x := by
  constructor
  · intro h
    rcases strtod_some u x h with ⟨d, h1, rfl, rfl⟩ | hw
    · exact .decimal d h1
    · obtain ⟨g, hg1, hg2, -⟩ := readSign_text u
      have hm : ∀ w : Str, w.map Char.toLower = w.map lowerAscii := fun w => List.map_congr_left fun c _ => (lower_eq c).symm
      simp only [numberWords, List.mem_cons, List.not_mem_nil, or_false] at hw
      unfold strtod at h
      simp only at h
      rw [hg1]
      by_cases hi : (readSign u).2.map lowerAscii = ['i', 'n', 'f'] ∨ (readSign u).2.map lowerAscii = ['i', 'n', 'f', 'i', 'n', 'i', 't', 'y']
      · rw [if_pos hi] at h
        injection h with h
        rw [← h, hg2]
        exact .infinity g (readSign u).2 (by rw [hm]; exact hi)
      · have hn : (readSign u).2.map lowerAscii = ['n', 'a', 'n'] := by tauto
        rw [if_neg hi, if_pos hn] at h
        injection h with h
        rw [← h]
        exact .nan g _ (by rw [hm]; exact hn)
  · intro h
    have hm : ∀ w : Str, w.map Char.toLower = w.map lowerAscii := fun w => List.map_congr_left fun c _ => (lower_eq c).symm
    cases h with
    | decimal d h => exact strtod_text d h
    | infinity g w h =>
      rw [hm] at h
      have hr : readSign (signText g ++ w) = (decide (g = some true), w) := by
        rcases h with h | h <;> exact readSign_word g w _ _ h (.inl rfl)
      unfold strtod
      rw [hr]
      simp only
      rw [if_pos h]
    | nan g w h =>
      rw [hm] at h
      have hr : readSign (signText g ++ w) = (decide (g = some true), w) := readSign_word g w _ _ h (.inr rfl)
      unfold strtod
      rw [hr]
      simp only
      rw [if_neg (by rw [h]; decide), if_pos h]

/-- C89.  A text is a number for Arrow exactly if it writes one, without plus sign, white space and underscores. -/
theorem C89_exact (s : Str) (x : F64) : arrowFloatText s = some x ↔ WritesNumber s x ∧ s.head? ≠ some '+' := by
  unfold arrowFloatText
  by_cases h : s.head? = some '+'
  · simp [h]
  · rw [if_neg h, strtod_exact]
    simp [h]

theorem isDigit_eq (c : Char) : isDigitChar c = c.isDigit := by
  unfold isDigitChar Char.isDigit
  rw [Bool.eq_iff_iff]
  simp only [Bool.and_eq_true, decide_eq_true_eq, ge_iff_le, UInt32.le_iff_toNat_le]
  rfl

/-- Where underscores may stand, after the character `p`. -/
theorem dropUnderscores_iff (p : Char) (u t : Str) : dropUnderscores p u = some t ↔
    t = u.filter (· ≠ '_') ∧ (p = '_' → ∃ c, u.head? = some c ∧ c.isDigit = true) ∧
      ∀ a b, u = a ++ '_' :: b → (∃ c, (p :: a).getLast? = some c ∧ c.isDigit = true) ∧ ∃ c, b.head? = some c ∧ c.isDigit = true := by
  induction u generalizing p t with
  | nil =>
    simp only [dropUnderscores]
    by_cases h : p = '_'
    · rw [if_pos h]; simp [h]
    · rw [if_neg h]
      simp only [h, false_imp_iff, true_and, Option.some.injEq, List.filter_nil]
      constructor
      · rintro rfl
        exact ⟨rfl, fun a b e => by simp at e⟩
      · exact fun h => h.1.symm
  | cons x u ih =>
    have split : ∀ P : Str → Str → Prop, (∀ a b, x :: u = a ++ '_' :: b → P a b) ↔
        (x = '_' → P [] u) ∧ ∀ a b, u = a ++ '_' :: b → P (x :: a) b := by
      intro P
      constructor
      · exact fun h => ⟨fun e => h [] u (by rw [e]; rfl), fun a b e => h (x :: a) b (by rw [e]; rfl)⟩
      · rintro ⟨h1, h2⟩ a b e
        cases a with
        | nil =>
          simp only [List.nil_append, List.cons.injEq] at e
          obtain ⟨rfl, rfl⟩ := e
          exact h1 rfl
        | cons y a =>
          simp only [List.cons_append, List.cons.injEq] at e
          obtain ⟨rfl, rfl⟩ := e
          exact h2 a b rfl
    rw [split]
    simp only [dropUnderscores]
    have d0 : ('_' : Char).isDigit = false := by decide
    by_cases hx : x = '_'
    · subst hx
      rw [if_pos rfl]
      by_cases hp : isDigitChar p = true
      · rw [if_pos hp, ih]
        have hp' : p ≠ '_' := by rintro rfl; exact absurd hp (by decide)
        rw [isDigit_eq] at hp
        simp [hp', hp, List.getLast?_cons_cons]
      · rw [if_neg hp]
        rw [isDigit_eq] at hp
        simp [hp]
    · rw [if_neg hx]
      by_cases hp : p = '_' ∧ isDigitChar x = false
      · rw [if_pos (by simp [hp.1, hp.2])]
        have := hp.2
        rw [isDigit_eq] at this
        simp [hp.1, this]
      · rw [if_neg (by simpa using hp)]
        rw [isDigit_eq] at hp
        have h1 : p = '_' → x.isDigit = true := by
          intro e
          by_contra h
          exact hp ⟨e, by simpa using h⟩
        simp only [Option.map_eq_some_iff, ih, hx, false_imp_iff, true_and, List.head?_cons, Option.some.injEq,
          exists_eq_left', List.getLast?_cons_cons]
        constructor
        · rintro ⟨t', ⟨rfl, h2⟩, rfl⟩
          exact ⟨by simp [hx], h1, h2⟩
        · rintro ⟨rfl, -, h2⟩
          exact ⟨_, ⟨rfl, h2⟩, by simp [hx]⟩

theorem dropUnderscores_exact (u t : Str) : dropUnderscores '\x00' u = some t ↔ BetweenDigits u ∧ t = u.filter (· ≠ '_') := by
  rw [dropUnderscores_iff]
  have d0 : ('\x00' : Char).isDigit = false := by decide
  have n0 : ('\x00' : Char) ≠ '_' := by decide
  simp only [n0, false_imp_iff, true_and]
  rw [and_comm]
  refine and_congr_left fun _ => forall₃_congr fun a b _ => and_congr_left fun _ => ?_
  cases a with
  | nil => simp [d0]
  | cons y a => rw [List.getLast?_cons_cons]

/-- C87.  A text is a number for Python's `float` exactly if, without the white space at its ends, every underscore stands
between two digits and the rest writes the number. -/
theorem C87_exact (s : Str) (x : F64) :
    pyFloatText s = some x ↔ BetweenDigits (pyStrip s) ∧ WritesNumber ((pyStrip s).filter (· ≠ '_')) x := by
  unfold pyFloatText
  cases h : dropUnderscores '\x00' (pyStrip s) with
  | none =>
    simp only [reduceCtorEq, false_iff, not_and]
    intro hb _
    have := (dropUnderscores_exact (pyStrip s) _).mpr ⟨hb, rfl⟩
    rw [h] at this
    cases this
  | some t =>
    obtain ⟨hb, rfl⟩ := (dropUnderscores_exact _ _).mp h
    simp only [strtod_exact, hb, true_and]

/-- C87.  A text without minus sign is a whole number for Python's `int` exactly if, without the white space at its ends,
every underscore stands between two digits and the rest are digits, after a plus sign or not. -/
theorem C87_int_exact (s : Str) (n : Nat) : pyIntText s = some n ↔ BetweenDigits (pyStrip s) ∧
    ∃ ds : List (Fin 10), ds ≠ [] ∧ n = wholeValue ds ∧
      ((pyStrip s).filter (· ≠ '_') = ds.map numeral ∨ (pyStrip s).filter (· ≠ '_') = '+' :: ds.map numeral) := by
  unfold pyIntText
  cases h : dropUnderscores '\x00' (pyStrip s) with
  | none =>
    simp only [reduceCtorEq, false_iff, not_and]
    intro hb _
    have := (dropUnderscores_exact (pyStrip s) _).mpr ⟨hb, rfl⟩
    rw [h] at this
    cases this
  | some t =>
    obtain ⟨hb, rfl⟩ := (dropUnderscores_exact _ _).mp h
    simp only [hb, true_and]
    generalize (pyStrip s).filter (· ≠ '_') = u
    constructor
    · intro h
      generalize hv : (if u.head? = some '+' then List.drop 1 u else u) = v at h
      by_cases hr : v ≠ [] ∧ v.all isDigitChar = true
      · rw [if_pos hr] at h
        injection h with h
        obtain ⟨ds, hds⟩ := digits_numeral _ hr.2
        refine ⟨ds, ?_, ?_, ?_⟩
        · rintro rfl
          exact hr.1 hds.symm
        · rw [← h, ← hds, digitsNat_whole]
        · rw [hds, ← hv]
          by_cases hp : u.head? = some '+'
          · right
            rw [if_pos hp]
            cases u with
            | nil => simp at hp
            | cons c u => simp at hp; simp [hp]
          · left; rw [if_neg hp]
      · rw [if_neg hr] at h; cases h
    · rintro ⟨ds, h1, rfl, rfl | rfl⟩
      · rw [if_neg (fun hh => (digits_head ds '+' hh).2 rfl), if_pos ⟨by simpa using h1, by simp [(isDigit_numeral _).1]⟩,
          digitsNat_whole]
      · rw [if_pos List.head?_cons, List.drop_succ_cons, List.drop_zero, if_pos ⟨by simpa using h1, by simp [(isDigit_numeral _).1]⟩,
          digitsNat_whole]

example : pyFloatText " +1_0.5_0e1\n".toList = some (.fin 105) ∧ pyFloatText "_1".toList = none ∧ pyFloatText "1__0".toList = none ∧
    pyFloatText "1_.0".toList = none ∧ pyFloatText "1_000_".toList = none ∧ pyFloatText "+Infinity ".toList = some (.inf false) ∧
    pyFloatText "1 000".toList = none ∧ pyIntText " 1_0 ".toList = some 10 ∧ pyIntText "+7".toList = some 7 ∧
    pyIntText "1.0".toList = none ∧ pyIntText "++1".toList = none := by decide +kernel

example : arrowFloatText "-12.50E-02".toList = some (.fin (-1 / 8)) ∧ arrowFloatText "007".toList = some (.fin 7) ∧
    arrowFloatText ".5".toList = some (.fin (1 / 2)) ∧ arrowFloatText "-INF".toList = some (.inf true) ∧
    (∀ s ∈ ["+5", " 5", "5 ", "1_000", "1,5", "0x10", "", "-", "5e", "1e5.0", "12:30", "01.02.2024"],
      arrowFloatText s.toList = none) := by decide +kernel

/-! ## Dates are no numbers -/

theorem isDigit_digitChar (n : Nat) : isDigitChar (digitChar n) = true := by
  have : ∀ m : Fin 10, isDigitChar (Char.ofNat (48 + m.val)) = true := by decide +kernel
  exact this ⟨n % 10, Nat.mod_lt _ (by norm_num)⟩

theorem digitChar_not (c : Char) (h : isDigitChar c = true) : c ≠ '-' ∧ c ≠ '+' ∧ lowerAscii c ≠ 'i' ∧ lowerAscii c ≠ 'n' := by
  obtain ⟨d, rfl⟩ := digit_numeral c h
  have := isDigit_numeral d
  exact ⟨this.2.2.2.1, this.2.2.2.2.1, this.2.2.2.2.2.2.1, this.2.2.2.2.2.2.2.1⟩

theorem takeWhile_stop (ds : Str) (c : Char) (r : Str) (h : ∀ x ∈ ds, isDigitChar x = true) (hc : isDigitChar c = false) :
    (ds ++ c :: r).takeWhile isDigitChar = ds ∧ (ds ++ c :: r).dropWhile isDigitChar = c :: r := by
  induction ds with
  | nil => simp [hc]
  | cons d ds ih =>
    have := ih fun x hx => h x (by simp [hx])
    simp only [List.cons_append, List.takeWhile_cons, List.dropWhile_cons, h d (by simp), if_true, this, and_self]

theorem strtod_digits (ds : Str) (c : Char) (r : Str) (hne : ds ≠ []) (h : ∀ x ∈ ds, isDigitChar x = true)
    (hc : isDigitChar c = false) (he : c ≠ 'e' ∧ c ≠ 'E')
    (hdot : c = '.' → ∃ es d q, r = es ++ d :: q ∧ (∀ x ∈ es, isDigitChar x = true) ∧ isDigitChar d = false ∧ d ≠ 'e' ∧ d ≠ 'E') :
    arrowFloatText (ds ++ c :: r) = none := by
  obtain ⟨x, xs, rfl⟩ := List.exists_cons_of_ne_nil hne
  have hx := digitChar_not x (h x (by simp))
  have hs : readSign (x :: xs ++ c :: r) = (false, x :: xs ++ c :: r) := by
    rw [List.cons_append, readSign]
    · intro r' e; injection e with e; exact hx.1 e
    · intro r' e; injection e with e; exact hx.2.1 e
  have ht := takeWhile_stop (x :: xs) c r h hc
  unfold arrowFloatText
  rw [if_neg (by simpa using hx.2.1)]
  unfold strtod
  simp only [hs]
  rw [if_neg (by
      rintro (h | h) <;> · rw [List.cons_append, List.map_cons] at h; injection h with h; exact hx.2.2.1 h),
    if_neg (by intro h; rw [List.cons_append, List.map_cons] at h; injection h with h; exact hx.2.2.2 h)]
  rw [ht.1, ht.2]
  by_cases hd : c = '.'
  · subst hd
    obtain ⟨es, d, q, rfl, h1, h2, h3⟩ := hdot rfl
    have ht' := takeWhile_stop es d q h1 h2
    simp only [List.head?_cons, if_true, List.drop_succ_cons, List.drop_zero, ht'.1, ht'.2]
    rw [if_neg (by simp)]
    simp [readExponent, h3]
  · simp only [List.head?_cons, Option.some.injEq, hd, if_false]
    rw [if_neg (by simp)]
    simp [readExponent, he]

/-- C89.  A text that writes a date or a time (C80) is no number. -/
theorem C89_date_is_no_number (s : Str) (v : Int) (h : WritesMoment s v) : arrowFloatText s = none := by
  have d2 : ∀ n, digits2 n ≠ [] ∧ ∀ x ∈ digits2 n, isDigitChar x = true := by
    intro n
    refine ⟨by simp [digits2], ?_⟩
    intro x hx
    simp only [digits2, List.mem_cons, List.not_mem_nil, or_false] at hx
    rcases hx with rfl | rfl <;> exact isDigit_digitChar _
  have d4 : ∀ n, digits4 n ≠ [] ∧ ∀ x ∈ digits4 n, isDigitChar x = true := by
    intro n
    refine ⟨by simp [digits4], ?_⟩
    intro x hx
    simp only [digits4, List.mem_cons, List.not_mem_nil, or_false] at hx
    rcases hx with rfl | rfl | rfl | rfl <;> exact isDigit_digitChar _
  have dmy : ∀ (st : DateStyle) (a b : Nat) (r : Str), arrowFloatText (digits2 a ++ st.sep :: digits2 b ++ st.sep :: r) = none := by
    intro st a b r
    rw [List.append_assoc, List.cons_append]
    refine strtod_digits _ _ _ (d2 a).1 (d2 a).2 (by cases st <;> decide) (by cases st <;> decide) fun hs => ?_
    exact ⟨digits2 b, st.sep, r, rfl, (d2 b).2, by cases st <;> decide, by cases st <;> decide⟩
  cases h with
  | full st ts d c k _ _ _ _ _ =>
    cases st with
    | iso =>
      simp only [DateStyle.write, List.append_assoc, List.cons_append]
      exact strtod_digits _ _ _ (d4 _).1 (d4 _).2 (by decide) (by decide) (by simp)
    | slash => simpa [DateStyle.write] using dmy .slash d.day d.month (digits4 d.year ++ ts.write c)
    | dot => simpa [DateStyle.write] using dmy .dot d.day d.month (digits4 d.year ++ ts.write c)
    | dash => simpa [DateStyle.write] using dmy .dash d.day d.month (digits4 d.year ++ ts.write c)
  | short st ts d c k _ _ _ _ _ _ _ =>
    simpa [DateStyle.write2] using dmy st d.day d.month (digits2 (d.year % 100) ++ ts.write c)
  | clock b c _ _ =>
    cases b
    · simp only [Clock.write, Bool.false_eq_true, if_false]
      exact strtod_digits _ _ _ (d2 _).1 (d2 _).2 (by decide) (by decide) (by simp)
    · simp only [Clock.write, if_true, List.append_assoc, List.cons_append]
      exact strtod_digits _ _ _ (d2 _).1 (d2 _).2 (by decide) (by decide) (by simp)

end Rxls
