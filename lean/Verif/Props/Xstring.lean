import Verif.Props.XlsxParts
import Verif.Spec.Xstring

/-! # Property C94: escaped characters in XLSX texts -/

namespace Rxls

theorem hexVal_digit : ∀ k < 16, hexVal (hexDigit k) = some k := by decide

theorem escapedChar_seq (c : Char) (h : c.toNat < 0x10000) (s : Str) : escapedChar (escapeSeq c ++ s) = some c := by
  have hv : c.toNat.isValidChar := c.valid
  have e : 4096 * (c.toNat / 4096 % 16) + 256 * (c.toNat / 256 % 16) + 16 * (c.toNat / 16 % 16) + c.toNat % 16 =
      c.toNat := by omega
  simp only [escapeSeq, List.cons_append, List.nil_append, escapedChar, hex4, hexVal_digit _ (Nat.mod_lt _ (by norm_num : 0 < 16)),
    Option.bind_some, e, if_pos hv, Char.ofNat_toNat]

theorem hexVal_underscore : hexVal '_' = none := by decide

theorem hexVal_plain {c : Char} (h : (hexVal c).isSome) : c ≠ '_' ∧ ∀ s, mustEscape c s = false := by
  have hc : (48 ≤ c.toNat ∧ c.toNat ≤ 57) ∨ (65 ≤ c.toNat ∧ c.toNat ≤ 70) ∨ (97 ≤ c.toNat ∧ c.toNat ≤ 102) := by
    unfold hexVal at h
    split at h
    · rename_i hh; exact .inl hh
    · split at h
      · rename_i hh; exact .inr (.inl hh)
      · split at h
        · rename_i hh; exact .inr (.inr hh)
        · simp at h
  have hu : c ≠ '_' := by
    rintro rfl
    exact absurd hc (by decide)
  refine ⟨hu, fun s => ?_⟩
  simp only [mustEscape, Bool.or_eq_false_iff, Bool.and_eq_false_iff, decide_eq_false_iff_not]
  refine ⟨⟨⟨.inl (.inl (by omega)), by omega⟩, by omega⟩, .inl hu⟩

/-- A character of the written text that is no underscore was in the text itself. -/
theorem stored_head {c : Char} {s r : Str} (hc : c ≠ '_') (h : stored s = c :: r) : ∃ s', s = c :: s' ∧ r = stored s' := by
  cases s with
  | nil => simp [stored] at h
  | cons d s' =>
    rw [stored] at h
    split at h
    · simp only [escapeSeq, List.cons_append] at h
      injection h with h _
      exact absurd h.symm hc
    · simp only [List.cons_append, List.nil_append] at h
      injection h with h1 h2
      subst h1
      exact ⟨s', rfl, h2.symm⟩

theorem escapedChar_shape {s : Str} {ch : Char} (h : escapedChar s = some ch) :
    ∃ a b c d t, s = '_' :: 'x' :: a :: b :: c :: d :: '_' :: t ∧ (hexVal a).isSome ∧ (hexVal b).isSome ∧
      (hexVal c).isSome ∧ (hexVal d).isSome := by
  unfold escapedChar at h
  split at h
  · rename_i a b c d t
    refine ⟨a, b, c, d, t, rfl, ?_⟩
    unfold hex4 at h
    split at h
    · rename_i ha hb hc hd
      simp [ha, hb, hc, hd]
    · simp at h
  · simp at h

/-- The underscore of a text does not begin a sequence in what is written. -/
theorem escapedChar_stored (c : Char) (s : Str) (h : mustEscape c s = false) : escapedChar (c :: stored s) = none := by
  cases he : escapedChar (c :: stored s) with
  | none => rfl
  | some ch =>
    exfalso
    obtain ⟨a, b, e, f, t, hs, ha, hb, hc, hd⟩ := escapedChar_shape he
    injection hs with h1 hs
    subst h1
    obtain ⟨s1, rfl, hs1⟩ := stored_head (by decide) hs
    obtain ⟨s2, rfl, hs2⟩ := stored_head (hexVal_plain ha).1 hs1.symm
    obtain ⟨s3, rfl, hs3⟩ := stored_head (hexVal_plain hb).1 hs2.symm
    obtain ⟨s4, rfl, hs4⟩ := stored_head (hexVal_plain hc).1 hs3.symm
    obtain ⟨s5, rfl, hs5⟩ := stored_head (hexVal_plain hd).1 hs4.symm
    obtain ⟨a', ha'⟩ := Option.isSome_iff_exists.1 ha
    obtain ⟨b', hb'⟩ := Option.isSome_iff_exists.1 hb
    obtain ⟨c', hc'⟩ := Option.isSome_iff_exists.1 hc
    obtain ⟨d', hd'⟩ := Option.isSome_iff_exists.1 hd
    simp [mustEscape, likeEscape, hex4, ha', hb', hc', hd'] at h

/-- What is written means the text. -/
theorem C94_meant_stored : ∀ s : Str, meant (stored s) = s
  | [] => rfl
  | c :: s => by
    have ih := C94_meant_stored s
    unfold meant at ih ⊢
    rw [stored]
    by_cases h : mustEscape c s = true
    · rw [if_pos h]
      have hlt : c.toNat < 0x10000 := by
        simp only [mustEscape, Bool.or_eq_true, Bool.and_eq_true, decide_eq_true_eq] at h
        rcases h with ((h | h) | h) | h
        · omega
        · omega
        · omega
        · rw [h.1]; decide
      have e := escapedChar_seq c hlt (stored s)
      simp only [escapeSeq, List.cons_append, List.nil_append] at e ⊢
      rw [meantFrom, e]
      simp only [meantFrom, ih]
    · rw [if_neg h, List.cons_append, List.nil_append, meantFrom, escapedChar_stored c s (by simpa using h)]
      simp only [ih]

example : stored "a\r\nb_x0041_".toList = "a_x000D_\nb_x005F_x0041_".toList ∧
    meant "a_x000D_\nb_x005F_x0041_".toList = "a\r\nb_x0041_".toList := by decide +kernel

/-- Text without sequences. -/
def NoEscapes (s : Str) : Prop := ∀ pre post, s = pre ++ post → escapedChar post = none

theorem NoEscapes.tail {c : Char} {s : Str} (h : NoEscapes (c :: s)) : NoEscapes s :=
  fun pre post e => h (c :: pre) post (by rw [e]; rfl)

theorem meantFrom_length : ∀ (n : Nat) (s : Str), (meantFrom n s).length ≤ s.length - n
  | n, [] => by simp [meantFrom]
  | n + 1, _ :: s => by
    have := meantFrom_length n s
    simp only [meantFrom, List.length_cons]; omega
  | 0, c :: s => by
    rw [meantFrom]
    cases he : escapedChar (c :: s) with
    | none =>
      have := meantFrom_length 0 s
      simp only [List.length_cons]; omega
    | some d =>
      have := meantFrom_length 6 s
      simp only [List.length_cons]; omega

theorem meant_eq_iff : ∀ s : Str, meant s = s ↔ NoEscapes s
  | [] => by
    refine ⟨fun _ pre post e => ?_, fun _ => rfl⟩
    have : post = [] := by simp_all
    rw [this]; rfl
  | c :: s => by
    have ih := meant_eq_iff s
    unfold meant at ih ⊢
    constructor
    · intro h
      rw [meantFrom] at h
      cases he : escapedChar (c :: s) with
      | some d =>
        exfalso
        rw [he] at h
        obtain ⟨a, b, e, f, t, hs, -⟩ := escapedChar_shape he
        injection hs with _ hs
        have h1 := congrArg List.length h
        have h2 := meantFrom_length 6 s
        rw [hs] at h1 h2
        simp only [List.length_cons] at h1 h2
        omega
      | none =>
        rw [he] at h
        injection h with _ h
        have hs := ih.1 h
        intro pre post e
        cases pre with
        | nil => rw [List.nil_append] at e; rw [← e]; exact he
        | cons d pre =>
          rw [List.cons_append] at e
          injection e with _ e
          exact hs pre post e
    · intro h
      rw [meantFrom, h [] (c :: s) rfl]
      simp only [ih.2 h.tail]

/-- C94: when a shared string is the text that is meant: a string stored as one text, not blank at its ends and no null
value, is read as the text that is meant exactly when it has no escape sequence. -/
theorem C94_exact (isNull : Str → Bool) (x : Si) (s : Str) (hx : x.texts = [s]) (hs : pyStrip s = s)
    (h0 : s ≠ []) (hn : isNull s = false) : x.entry isNull = some (meant s) ↔ NoEscapes s := by
  rw [C47_single_run_partial isNull x s hx hs h0 hn, ← meant_eq_iff, Option.some_inj, eq_comm]

theorem stored_self : ∀ s : Str, stored s = s ↔ ∀ pre c post, s = pre ++ c :: post → mustEscape c post = false
  | [] => by simp [stored]
  | c :: s => by
    have ih := stored_self s
    constructor
    · intro h pre d post e
      have hc : mustEscape c s = false := by
        by_contra hm
        rw [stored, if_pos (by simpa using hm)] at h
        have h1 := congrArg List.length h
        have h2 : s.length ≤ (stored s).length := by
          clear h h1 ih hm e
          induction s with
          | nil => simp
          | cons a s ih' => rw [stored]; split <;> simp [escapeSeq] <;> omega
        simp only [escapeSeq, List.length_append, List.length_cons, List.length_nil] at h1
        omega
      cases pre with
      | nil =>
        rw [List.nil_append] at e
        injection e with e1 e2
        subst e1; subst e2
        exact hc
      | cons a pre =>
        rw [List.cons_append] at e
        injection e with _ e
        rw [stored, hc] at h
        simp only [Bool.false_eq_true, if_false, List.cons_append, List.nil_append] at h
        injection h with _ h
        exact ih.1 h pre d post e
    · intro h
      rw [stored, h [] c s rfl]
      simp only [Bool.false_eq_true, if_false, List.cons_append, List.nil_append]
      rw [ih.2 fun pre d post e => h (c :: pre) d post (by rw [e]; rfl)]

/-- C94, partial: a text without characters that must be escaped comes back as it was.  Missing: texts with a carriage
return, another control character, or something that looks like an escape sequence; none of them comes back
(`C94_exact_text`). -/
theorem C94_plain_partial (isNull : Str → Bool) (x : Si) (s : Str) (hx : x.texts = [stored s]) (hs : pyStrip s = s)
    (h0 : s ≠ []) (hn : isNull s = false) (h : ∀ pre c post, s = pre ++ c :: post → mustEscape c post = false) :
    x.entry isNull = some s := by
  rw [(stored_self s).2 h] at hx
  exact C47_single_run_partial isNull x s hx hs h0 hn

theorem stored_length (s : Str) : s.length ≤ (stored s).length := by
  induction s with
  | nil => simp
  | cons a s ih => rw [stored]; split <;> simp [escapeSeq] <;> omega

/-- C94: which texts come back: those, not blank at their ends and no null value, without a character that must be
escaped. -/
theorem C94_exact_text (isNull : Str → Bool) (x : Si) (s : Str) (hx : x.texts = [stored s]) (hs : pyStrip s = s)
    (h0 : s ≠ []) (hn : isNull s = false) (hs' : pyStrip (stored s) = stored s) (hn' : isNull (stored s) = false) :
    x.entry isNull = some s ↔ ∀ pre c post, s = pre ++ c :: post → mustEscape c post = false := by
  refine ⟨fun h => ?_, C94_plain_partial isNull x s hx hs h0 hn⟩
  have h0' : stored s ≠ [] := by
    intro e
    have := stored_length s
    rw [e] at this
    exact h0 (List.length_eq_zero_iff.1 (by simpa using this))
  rw [C47_single_run_partial isNull x _ hx hs' h0' hn', Option.some_inj] at h
  exact (stored_self s).1 h

/-- C94 fails: two lines written with carriage return and line feed are read with the text `_x000D_` between them, and
the text `_x0041_` as `_x005F_x0041_`. -/
theorem C94_escape_finding :
    (∃ x : Si, x.texts = [stored "one\r\ntwo".toList] ∧ x.entry (fun _ => false) = some "one_x000D_\ntwo".toList) ∧
    (∃ x : Si, x.texts = [stored "_x0041_".toList] ∧ x.entry (fun _ => false) = some "_x005F_x0041_".toList) :=
  ⟨⟨exSi [stored "one\r\ntwo".toList], by decide +kernel, by decide +kernel⟩,
   ⟨exSi [stored "_x0041_".toList], by decide +kernel, by decide +kernel⟩⟩

example : ∃ s : Str, s = "a_b".toList ∧ pyStrip s = s ∧ stored s = s ∧
    (exSi [stored s]).entry (fun _ => false) = some s := ⟨_, rfl, by decide +kernel⟩

end Rxls
