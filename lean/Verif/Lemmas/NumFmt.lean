import Verif.Spec.Format
import Mathlib.Data.List.Chain

/-! # Lemmas about the format regular expressions -/

namespace Rxls

theorem afterQuote_length : ∀ (s r : Str), afterQuote s = some r → r.length < s.length
  | [], r, h => by simp [afterQuote] at h
  | c :: s, r, h => by
    rw [afterQuote] at h
    split at h
    · simp at h; subst h; simp
    · split at h
      · simp at h
      · have := afterQuote_length s r h; simp; omega

theorem afterBracket_length : ∀ (s r : Str), afterBracket s = some r → r.length < s.length
  | [], r, h => by simp [afterBracket] at h
  | c :: s, r, h => by
    rw [afterBracket] at h
    split at h
    · simp at h; subst h; simp
    · have := afterBracket_length s r h; simp; omega

theorem xtMatch_length (s r : Str) (h : xtMatch s = some r) : r.length < s.length := by
  unfold xtMatch at h
  split at h
  · have := afterQuote_length _ _ h; simp; omega
  · split at h
    · simp at h
    · have := afterBracket_length _ _ h; simp; omega
  · simp at h

theorem xtSubFuel_enough : ∀ (n m : Nat) (s : Str), s.length ≤ n → s.length ≤ m → xtSubFuel n s = xtSubFuel m s
  | 0, m, s, hn, _ => by
    have : s = [] := by simpa using hn
    subst this
    cases m <;> rfl
  | n + 1, 0, s, _, hm => by
    have : s = [] := by simpa using hm
    subst this
    rfl
  | n + 1, m + 1, [], _, _ => rfl
  | n + 1, m + 1, c :: s, hn, hm => by
    rw [xtSubFuel, xtSubFuel]
    simp only [List.length_cons] at hn hm
    cases hx : xtMatch (c :: s) with
    | none => simp only; rw [xtSubFuel_enough n m s (by omega) (by omega)]
    | some r =>
      have := xtMatch_length _ _ hx
      simp only [List.length_cons] at this
      exact xtSubFuel_enough n m r (by omega) (by omega)

theorem xtSub_nil : xtSub [] = [] := rfl

theorem xtSub_cons (c : Char) (s : Str) :
    xtSub (c :: s) = match xtMatch (c :: s) with | some r => xtSub r | none => c :: xtSub s := by
  rw [xtSub, List.length_cons, xtSubFuel]
  cases hx : xtMatch (c :: s) with
  | none => rfl
  | some r =>
    have := xtMatch_length _ _ hx
    simp only [List.length_cons] at this
    exact xtSubFuel_enough _ _ r (by omega) (by omega)

theorem xtMatch_plain {c : Char} (h1 : c ≠ '"') (h2 : c ≠ '[') (s : Str) : xtMatch (c :: s) = none := by
  unfold xtMatch
  split <;> simp_all

theorem afterQuote_spec : ∀ (s : Str), '\n' ∉ s → '"' ∈ s →
    ∃ a r, s = a ++ '"' :: r ∧ afterQuote s = some r ∧ visible .quoted s = visible .normal r
  | [], _, h => by simp at h
  | c :: s, hn, h => by
    by_cases hc : c = '"'
    · subst hc
      exact ⟨[], s, rfl, by simp [afterQuote], by simp [visible]⟩
    · have hcn : c ≠ '\n' := fun e => hn (by simp [e])
      obtain ⟨a, r, h1, h2, h3⟩ := afterQuote_spec s (fun e => hn (by simp [e]))
        (by simpa [Ne.symm hc] using h)
      exact ⟨c :: a, r, by simp [h1], by simp [afterQuote, hc, hcn, h2], by simp [visible, hc, h3]⟩

theorem afterQuote_none : ∀ (s : Str), '"' ∉ s → afterQuote s = none
  | [], _ => rfl
  | c :: s, h => by
    have hc : c ≠ '"' := fun e => h (by simp [e])
    rw [afterQuote, if_neg hc]
    split
    · rfl
    · exact afterQuote_none s fun e => h (by simp [e])

theorem afterBracket_spec : ∀ (s : Str), ']' ∈ s →
    ∃ a r, s = a ++ ']' :: r ∧ afterBracket s = some r ∧ visible .bracketed s = visible .normal r
  | [], h => by simp at h
  | c :: s, h => by
    by_cases hc : c = ']'
    · subst hc
      exact ⟨[], s, rfl, by simp [afterBracket], by simp [visible]⟩
    · obtain ⟨a, r, h1, h2, h3⟩ := afterBracket_spec s (by simpa [Ne.symm hc] using h)
      exact ⟨c :: a, r, by simp [h1], by simp [afterBracket, hc, h2], by simp [visible, hc, h3]⟩

theorem afterBracket_none : ∀ (s : Str), ']' ∉ s → afterBracket s = none
  | [], _ => rfl
  | c :: s, h => by
    have hc : c ≠ ']' := fun e => h (by simp [e])
    rw [afterBracket, if_neg hc]
    exact afterBracket_none s fun e => h (by simp [e])

/-- The lookahead of `re_xt`. -/
theorem isClock_iff (s : Str) : isClock s = true ↔ ']' ∈ s ∧ s.takeWhile (· ≠ ']') ∈ clockNames := by
  constructor
  · intro h
    unfold isClock at h
    split at h <;> simp_all [clockNames]
  · rintro ⟨h1, h2⟩
    have key : ∀ (s : Str), ']' ∈ s → ∃ r, s = s.takeWhile (· ≠ ']') ++ ']' :: r := by
      intro s
      induction s with
      | nil => simp
      | cons c s ih =>
        intro h
        by_cases hc : c = ']'
        · subst hc; exact ⟨s, by simp⟩
        · obtain ⟨r, hr⟩ := ih (by simpa [Ne.symm hc] using h)
          refine ⟨r, ?_⟩
          rw [List.takeWhile_cons_of_pos (by simpa using hc), List.cons_append, ← hr]
    obtain ⟨r', hr⟩ := key _ h1
    rw [hr]
    simp only [clockNames, List.mem_cons, List.not_mem_nil, or_false] at h2
    rcases h2 with h | h | h | h | h | h <;> rw [h] <;> simp [isClock]

theorem isDtChar_iff (c : Char) : isDtChar c = true ↔ c ∈ dateLetters := by
  simp [isDtChar, dateLetters]

/-- Search in the substituted text against the reference semantics. -/
theorem dtSearch_visible (n : Nat) : ∀ (s : Str), s.length ≤ n → '\n' ∉ s → PlainEscapes s →
    (∀ prev, prev ≠ '\\' → (dtSearchFrom prev (xtSub s) = true ↔ ∃ c ∈ visible .normal s, c ∈ dateLetters)) ∧
    (PlainEscapes ('\\' :: s) →
      (dtSearchFrom '\\' (xtSub s) = true ↔ ∃ c ∈ visible .escaped s, c ∈ dateLetters)) := by
  induction n with
  | zero =>
    intro s hl _ _
    have : s = [] := by simpa using hl
    subst this
    simp [xtSub_nil, dtSearchFrom, visible]
  | succ n ih =>
    intro s hl hnl hpe
    cases s with
    | nil => simp [xtSub_nil, dtSearchFrom, visible]
    | cons c s =>
      have hl' : s.length ≤ n := by simpa using hl
      have hnl' : '\n' ∉ s := fun h => hnl (by simp [h])
      have hpe' : PlainEscapes s := hpe.tail
      obtain ⟨ihn, ihe⟩ := ih s hl' hnl' hpe'
      constructor
      · intro prev hprev
        rw [visible]
        by_cases hb : c = '\\'
        · subst hb
          rw [if_pos rfl, xtSub_cons, xtMatch_plain (by decide) (by decide)]
          have : isDtChar '\\' = false := by decide
          simp only [dtSearchFrom, this, Bool.false_and, Bool.false_or]
          exact ihe hpe
        · rw [if_neg hb]
          by_cases hq : c = '"'
          · subst hq
            by_cases hin : '"' ∈ s
            · obtain ⟨a, r, h1, h2, h3⟩ := afterQuote_spec s hnl' hin
              rw [if_pos ⟨rfl, hin⟩, h3, xtSub_cons]
              have : xtMatch ('"' :: s) = some r := h2
              rw [this]
              have hpr : PlainEscapes r := by
                have : PlainEscapes (a ++ '"' :: r) := h1 ▸ hpe'
                exact (List.IsChain.right_of_append this).tail
              have hnr : '\n' ∉ r := fun h => hnl' (by simp [h1, h])
              exact (ih r (by rw [h1] at hl'; simp at hl'; omega) hnr hpr).1 prev hprev
            · rw [if_neg (by simp [hin]), if_neg (by simp), xtSub_cons]
              have : xtMatch ('"' :: s) = none := afterQuote_none s hin
              rw [this]
              have hd : isDtChar '"' = false := by decide
              have hd' : '"' ∉ dateLetters := by decide
              simp only [dtSearchFrom, hd, Bool.false_and, Bool.false_or]
              rw [ihn '"' (by decide)]
              simp [hd']
          · rw [if_neg (by simp [hq])]
            by_cases hk : c = '['
            · subst hk
              by_cases hin : ']' ∈ s ∧ s.takeWhile (· ≠ ']') ∉ clockNames
              · obtain ⟨a, r, h1, h2, h3⟩ := afterBracket_spec s hin.1
                rw [if_pos ⟨rfl, hin⟩, h3, xtSub_cons]
                have hcl : isClock s = false := by
                  cases hc : isClock s with
                  | false => rfl
                  | true => exact absurd ((isClock_iff s).1 hc).2 hin.2
                have : xtMatch ('[' :: s) = some r := by
                  show (if isClock s = true then none else afterBracket s) = some r
                  rw [hcl, h2]; rfl
                rw [this]
                have hpr : PlainEscapes r := by
                  have : PlainEscapes (a ++ ']' :: r) := h1 ▸ hpe'
                  exact (List.IsChain.right_of_append this).tail
                have hnr : '\n' ∉ r := fun h => hnl' (by simp [h1, h])
                exact (ih r (by rw [h1] at hl'; simp at hl'; omega) hnr hpr).1 prev hprev
              · rw [if_neg (by simp only [true_and]; exact hin), xtSub_cons]
                have : xtMatch ('[' :: s) = none := by
                  show (if isClock s = true then none else afterBracket s) = none
                  by_cases hb : ']' ∈ s
                  · have hm : s.takeWhile (· ≠ ']') ∈ clockNames := by
                      by_contra h; exact hin ⟨hb, h⟩
                    rw [if_pos ((isClock_iff s).2 ⟨hb, hm⟩)]
                  · rw [afterBracket_none s hb]; simp
                rw [this]
                have hd : isDtChar '[' = false := by decide
                have hd' : '[' ∉ dateLetters := by decide
                simp only [dtSearchFrom, hd, Bool.false_and, Bool.false_or]
                rw [ihn '[' (by decide)]
                simp [hd']
            · rw [if_neg (by simp [hk]), xtSub_cons, xtMatch_plain hq hk]
              simp only [dtSearchFrom, Bool.or_eq_true, Bool.and_eq_true, bne_iff_ne, ne_eq, hprev,
                not_false_eq_true, and_true, isDtChar_iff, List.mem_cons, exists_eq_or_imp]
              rw [ihn c hb]
      · intro hpb
        have hc := (List.isChain_cons_cons.1 hpb).1 rfl
        rw [visible, xtSub_cons, xtMatch_plain hc.1 hc.2.1]
        simp only [dtSearchFrom, bne_self_eq_false, Bool.and_false, Bool.false_or]
        exact ihn c hc.2.2

theorem fmtTemporal_iff (fmt : Str) (hn : '\n' ∉ fmt) (hp : PlainEscapes fmt) :
    fmtTemporal fmt = true ↔ showsDate fmt :=
  (dtSearch_visible fmt.length fmt (Nat.le_refl _) hn hp).1 ' ' (by decide)

/-- A harmless character in front changes nothing. -/
theorem fmtTemporal_cons (c : Char) (s : Str) (h1 : c ≠ '"') (h2 : c ≠ '[') (h3 : c ∉ dateLetters) (d : Char)
    (h4 : d ≠ '"') (h5 : d ≠ '[') (h6 : d ∉ dateLetters) (h7 : d ≠ '\\') :
    fmtTemporal (c :: d :: s) = fmtTemporal s := by
  have e1 : isDtChar c = false := by
    cases h : isDtChar c with
    | false => rfl
    | true => exact absurd ((isDtChar_iff c).1 h) h3
  have e2 : isDtChar d = false := by
    cases h : isDtChar d with
    | false => rfl
    | true => exact absurd ((isDtChar_iff d).1 h) h6
  have e3 : ∀ (t : Str) (p q : Char), p ≠ '\\' → q ≠ '\\' → dtSearchFrom p t = dtSearchFrom q t := by
    intro t p q hp hq
    cases t with
    | nil => rfl
    | cons a t =>
      have e1 : (p != '\\') = true := bne_iff_ne.2 hp
      have e2 : (q != '\\') = true := bne_iff_ne.2 hq
      simp only [dtSearchFrom, e1, e2]
  rw [fmtTemporal, xtSub_cons, xtMatch_plain h1 h2]
  simp only
  rw [xtSub_cons, xtMatch_plain h4 h5]
  simp only [dtSearch, dtSearchFrom, e1, e2, Bool.false_and, Bool.false_or]
  exact e3 _ _ _ h7 (by decide)

end Rxls
